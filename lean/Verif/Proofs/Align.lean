import Verif.Spec.Align
import Verif.Proofs.OdtStyles
import Verif.Proofs.Points
set_option autoImplicit false
set_option linter.unusedSimpArgs false
set_option linter.unusedVariables false
set_option Elab.async false
namespace Hwp
open Spec

theorem textAlign_eq (as : List (PyStr × PyStr)) (a : PyStr) (h : attrOf as "align" = some a) : textAlign as = shownAlign a := by
  unfold textAlign shownAlign
  rw [attrValue_eq, h, Option.getD_some]
  by_cases c : a = lit "center"
  · subst c; decide +kernel
  by_cases l : a = lit "left"
  · subst l; decide +kernel
  by_cases r : a = lit "right"
  · subst r; decide +kernel
  simp [c, l, r]

theorem officeAlign_eq (as : List (PyStr × PyStr)) (a : PyStr) (h : attrOf as "align" = some a) : officeAlign as = shownAlign a := by
  unfold officeAlign shownAlign
  rw [attrValue_eq, h, Option.getD_some]
  by_cases c : a = lit "center"
  · subst c; decide +kernel
  by_cases l : a = lit "left"
  · subst l; decide +kernel
  by_cases r : a = lit "right"
  · subst r; decide +kernel
  simp [c, l, r]

theorem textAlign_ne (as : List (PyStr × PyStr)) : textAlign as ≠ [] := by
  unfold textAlign
  split; · decide
  split; · decide
  split; · decide
  split <;> decide

/-! ### Selectors -/

def paraClass (n : Nat) : PyStr := lit "parashape-" ++ natStr n

theorem paraClass_ident (n : Nat) : isIdent (paraClass n) = true := by
  unfold paraClass
  rw [show lit "parashape-" = 112 :: [97, 114, 97, 115, 104, 97, 112, 101, 45] from by decide]
  exact ident_more _ _ _ (by decide) (by decide) (natStr_ident n)

theorem paraClass_inj {m n : Nat} (h : paraClass m = paraClass n) : m = n := natStr_inj (List.append_cancel_left h)

theorem writable_para (n : Nat) : Writable (lit "p") [paraClass n] :=
  ⟨.inr (by decide), by simpa using paraClass_ident n, by simp⟩

theorem para_selector (n : Nat) : lit "p.parashape-" ++ natStr n = simpleText (lit "p") [paraClass n] := by
  rw [show lit "p.parashape-" = lit "p" ++ 0x2E :: lit "parashape-" from by decide]
  simp [simpleText, paraClass]

theorem stylePara_selector (N : PyStr) : lit "." ++ N = simpleText [] [N] := by
  rw [show lit "." = [0x2E] from by decide]
  simp [simpleText]

theorem bullet_unread (n : Nat) : readSelector (lit ".Bullet-" ++ natStr n ++ lit "::before") = none := by
  have dig : ∀ c ∈ natStr n, 0x30 ≤ c ∧ c ≤ 0x39 := natStr_digit n
  have mem : ∀ c ∈ lit "Bullet-" ++ natStr n ++ lit "::before", c ≠ 0x20 ∧ c ≠ 0x2E ∧ c ≠ 0x3E := by
    intro c hc
    rcases List.mem_append.1 hc with hc | hc
    · rcases List.mem_append.1 hc with hc | hc
      · have : ∀ c ∈ lit "Bullet-", c ≠ 0x20 ∧ c ≠ 0x2E ∧ c ≠ 0x3E := by decide +kernel
        exact this c hc
      · have := dig c hc; omega
    · have : ∀ c ∈ lit "::before", c ≠ 0x20 ∧ c ≠ 0x2E ∧ c ≠ 0x3E := by decide +kernel
      exact this c hc
  have e0 : lit ".Bullet-" ++ natStr n ++ lit "::before" = [] ++ 0x2E :: (lit "Bullet-" ++ natStr n ++ lit "::before") := by
    rw [show lit ".Bullet-" = 0x2E :: lit "Bullet-" from by decide]; rfl
  unfold readSelector
  rw [e0, partsAt_self 0x3E _ (by
    intro m
    rcases List.mem_cons.1 m with m | m
    · exact absurd m (by decide)
    · exact (mem _ m).2.2 rfl)]
  simp only [List.map_cons, List.map_nil, List.reverse_singleton]
  rw [trimmed_none _ (by
    intro m
    rcases List.mem_cons.1 m with m | m
    · exact absurd m (by decide)
    · exact (mem _ m).1 rfl)]
  have r : readSimple ([] ++ 0x2E :: (lit "Bullet-" ++ natStr n ++ lit "::before")) = none := by
    unfold readSimple
    rw [partsAt_cut _ _ _ (by simp), partsAt_self _ _ (fun m => (mem _ m).2.1 rfl)]
    simp only
    rw [if_neg]
    rintro ⟨_, _, h⟩
    simp only [List.all_cons, List.all_nil, Bool.and_true] at h
    have := (isIdent_all h).2 0x3A (by
      refine List.mem_append.2 (.inr ?_)
      decide)
    exact absurd this (by decide)
  rw [List.mapM_cons, r]
  rfl

/-! ### What is declared -/

/-- The properties that rules declare for characters. -/
def charNames : List PyStr := ["color", "font-style", "font-weight", "font-family", "font-size", "line-height"].map lit ++ decoNames

theorem span_name : lit "line-height" ∈ charNames := by decide +kernel

theorem mem_char_names (doc : Forest XNode) (sel : PyStr) (c : XElem) {prop : PyStr} (hp : prop ∉ charNames) :
    ∀ x ∈ charRules doc sel c, ∀ d ∈ x.2, d.1 ≠ prop := by
  intro x hx d hd
  have m : ∀ n ∈ ["color", "font-style", "font-weight", "font-family"], lit n ∈ charNames := by decide +kernel
  suffices h : d.1 ∈ charNames from fun e => hp (e ▸ h)
  unfold charRules at hx
  rcases List.mem_cons.1 hx with rfl | hx
  · unfold charDecls at hd
    rcases List.mem_append.1 hd with hd | hd
    swap
    · exact List.mem_append_right _ (mem_lineDecls _ d hd)
    rcases List.mem_cons.1 hd with rfl | hd
    · exact m "color" (by decide)
    rcases List.mem_append.1 hd with hd | hd
    · split at hd
      · obtain rfl := List.mem_singleton.1 hd; exact m "font-style" (by decide)
      · simp at hd
    · split at hd
      · obtain rfl := List.mem_singleton.1 hd; exact m "font-weight" (by decide)
      · simp at hd
  · have n : ∀ n ∈ langNames, n ∈ charNames := by decide +kernel
    exact n _ (mem_langRules _ _ _ x hx d hd)

/-- The values of a property that a paragraph shape declares. -/
def shapeValues (prop : PyStr) (shape : XElem) : List PyStr := ((paraDecls shape).filter fun d => decide (d.1 = prop ∧ d.2 ≠ [])).map (·.2)

theorem shape_values (prop : PyStr) (shapes : List XElem) :
    ((shapes.flatMap paraDecls).filter fun d => decide (d.1 = prop ∧ d.2 ≠ [])).map (·.2) = shapes.flatMap (shapeValues prop) := by
  induction shapes with
  | nil => rfl
  | cons s ss ih =>
    rw [List.flatMap_cons, List.filter_append, List.map_append, ih]
    rfl

theorem shape_declared {sel : PyStr} {qs : List Simple} (h : readSelector sel = some qs) (prop : PyStr) (shapes : List XElem) (path : List Box) :
    cssDeclared [(sel, shapes.flatMap paraDecls)] prop path =
      if selects qs path then (shapes.flatMap (shapeValues prop)).map fun v => (specificity qs, v) else [] := by
  rw [declared_one h, ← shape_values]

theorem declared_shape (doc T : Forest XNode) {prop : PyStr} (hp : prop ∉ charNames) (hN : ∀ s ∈ entries "Style" T, isIdent (styleClass s) = true) (cls : PyStr) (rest : List Box) :
    cssDeclared (tableRules doc T) prop ((lit "p", cls) :: rest) =
      ((entries "Style" T).flatMap fun s =>
        if (classesOf cls).contains (styleClass s) then
          (if attrOf s.1 "kind" = some (lit "paragraph") then
            (nthOf doc "ParaShape" (xpathNumber (attrValue s.1 "parashape-id"))).flatMap (shapeValues prop) else []) else []).map (fun v => ((1, 0), v)) ++
      ((entries "ParaShape" T).zipIdx.flatMap fun e => if (classesOf cls).contains (paraClass e.2) then shapeValues prop e.1 else []).map (fun v => ((1, 1), v)) := by
  unfold tableRules
  simp only [childrenNamed_eq]
  rw [declared_append, declared_append, declared_append, declared_append]
  have bullets : cssDeclared ((entries "Bullet" T).zipIdx.map fun e =>
      (lit ".Bullet-" ++ natStr (e.2 + 1) ++ lit "::before", [(lit "text-align", attrValue e.1.1 "align")])) prop ((lit "p", cls) :: rest) = [] := by
    unfold cssDeclared
    rw [List.flatMap_eq_nil_iff]
    intro x hx
    obtain ⟨e, _, rfl⟩ := List.mem_map.1 hx
    simp only [bullet_unread]
  have chars : cssDeclared ((entries "CharShape" T).zipIdx.flatMap fun e => charRules doc (lit "span.charshape-" ++ natStr e.2) e.1)
      prop ((lit "p", cls) :: rest) = [] := by
    refine declared_none _ _ _ ?_
    intro x hx
    obtain ⟨e, _, hx⟩ := List.mem_flatMap.1 hx
    exact mem_char_names _ _ _ hp x hx
  rw [bullets, chars, declared_none (List.map _ (entries "BorderFill" T).zipIdx), List.append_nil, List.append_nil, List.append_nil]
  · congr 1
    · rw [declared_flatMap, List.map_flatMap]
      refine List.flatMap_congr fun s hs => ?_
      unfold styleRules
      simp only [styleClass_eq]
      rw [declared_append, declared_none (List.flatMap _ _), List.append_nil]
      · rw [attrNode_eq]
        by_cases hk : attrOf s.1 "kind" = some (lit "paragraph")
        · rw [if_pos hk, if_pos hk, declared_cons, declared_none [(_, List.flatMap spanDecls _)], List.append_nil, stylePara_selector,
            shape_declared (readSelector_one (writable_style (hN s hs)))]
          · by_cases hc : (classesOf cls).contains (styleClass s) = true
            · rw [if_pos hc, if_pos]
              · rfl
              · simp only [selects, meets, decide_true, Bool.true_or, List.all_cons, List.all_nil, Bool.and_true, Bool.true_and]
                exact hc
            · rw [if_neg hc, if_neg]
              · rfl
              · simp only [selects, meets, decide_true, Bool.true_or, List.all_cons, List.all_nil, Bool.and_true, Bool.true_and]
                exact hc
          · intro x hx d hd
            obtain rfl := List.mem_singleton.1 hx
            obtain ⟨e, _, hd⟩ := List.mem_flatMap.1 hd
            exact fun e => hp (e ▸ spanDecls_names _ d hd ▸ span_name)
        · rw [if_neg hk, if_neg hk]
          simp [cssDeclared]
      · intro x hx
        obtain ⟨e, _, hx⟩ := List.mem_flatMap.1 hx
        exact mem_char_names _ _ _ hp x hx
    · rw [declared_flatMap, List.map_flatMap]
      refine List.flatMap_congr fun e he => ?_
      unfold paraRules
      rw [declared_cons, declared_none [(_, spanDecls _)], List.append_nil, para_selector]
      · have d : paraDecls e.1 = [e.1].flatMap paraDecls := by simp
        rw [d, shape_declared (readSelector_one (writable_para e.2))]
        by_cases hc : (classesOf cls).contains (paraClass e.2) = true
        · rw [if_pos hc, if_pos]
          · simp only [List.flatMap_cons, List.flatMap_nil, List.append_nil]
            rfl
          · simp only [selects, meets, decide_true, Bool.or_true, List.all_cons, List.all_nil, Bool.and_true, Bool.true_and]
            exact hc
        · rw [if_neg hc, if_neg]
          · rfl
          · simp only [selects, meets, decide_true, Bool.or_true, List.all_cons, List.all_nil, Bool.and_true, Bool.true_and]
            exact hc
      · intro x hx d hd
        obtain rfl := List.mem_singleton.1 hx
        exact fun e => hp (e ▸ spanDecls_names _ d hd ▸ span_name)
  · intro x hx d hd
    obtain ⟨e, _, rfl⟩ := List.mem_map.1 hx
    simp at hd

/-! ### The classes of paragraphs -/

theorem paragraph_classes_shape {doc T : Forest XNode} {ids : List (PyStr × PyStr)} (h : TablesAre doc ids T) {para : List (PyStr × PyStr)} {k j : Nat}
    {st : XElem} (hk : attrOf para "style-id" = some (natStr k)) (hs : (entries "Style" T)[k]? = some st)
    (hj : attrOf para "parashape-id" = some (natStr j)) (hi : isIdent (styleClass st) = true) :
    ∃ more, classesOf (paragraphClass doc para) = styleClass st :: ((if attrOf st.1 "parashape-id" = some (natStr j) then [] else [paraClass j]) ++ more) ∧
      ∀ w ∈ more, lit "Bullet-" <+: w := by
  have hN : 0x20 ∉ styleClass st := (ident_free hi).1
  have hne := (isIdent_all hi).1
  unfold paragraphClass
  rw [styleNodes_eq h hk hs]
  have e1 : dashes (firstAttr [st] "name") = styleClass st := by
    unfold firstAttr
    rw [← styleClass_eq, attrValue_eq, attrNodes_one]
    cases attrOf st.1 "name" <;> rfl
  have e2 : (attrNodes [st] "parashape-id").any (fun v => attrNode para "parashape-id" == some v) = decide (attrOf st.1 "parashape-id" = some (natStr j)) := by
    rw [attrNodes_one, attrNode_eq, hj]
    cases attrOf st.1 "parashape-id" with
    | none => simp
    | some v =>
      simp only [Option.toList_some, List.any_cons, List.any_nil, Bool.or_false]
      by_cases hv : v = natStr j
      · simp [hv]
      · simp [hv, Ne.symm hv]
  simp only [e1, e2, decide_eq_true_eq]
  by_cases c : attrOf st.1 "parashape-id" = some (natStr j)
  · rw [if_pos c, if_pos c]
    simp only [List.flatMap_cons, List.flatMap_nil, List.append_nil, List.nil_append]
    exact bullet_classes (bulletClass_text h st.1) _ hN hne
  · rw [if_neg c, if_neg c, attrValue_eq para, hj]
    obtain ⟨more, m1, m2⟩ := bullet_classes (bulletClass_text h para) (paraClass j) (ident_free (paraClass_ident j)).1 (isIdent_all (paraClass_ident j)).1
    refine ⟨more, ?_, m2⟩
    rw [show lit " parashape-" = 0x20 :: lit "parashape-" from by decide]
    simp only [Option.getD_some, List.cons_append]
    rw [classesOf_cut _ _ hN hne]
    change styleClass st :: classesOf (paraClass j ++ _) = _
    rw [m1]
    rfl

theorem bullet_not_para (w : PyStr) (h : lit "Bullet-" <+: w) (n : Nat) : w ≠ paraClass n := by
  rintro rfl
  obtain ⟨t, ht⟩ := h
  have := congrArg List.head? ht
  unfold paraClass at this
  rw [show lit "Bullet-" = 66 :: [117, 108, 108, 101, 116, 45] from by decide,
    show lit "parashape-" = 112 :: [97, 114, 97, 115, 104, 97, 112, 101, 45] from by decide] at this
  simp at this

/-! ### HTML -/

/-- Of the styles and the paragraph shapes, those whose classes a paragraph has: its style, and its own shape, if it is not the one of the style. -/
theorem para_select {doc T : Forest XNode} {ids : List (PyStr × PyStr)} (h : TablesAre doc ids T) (hN : ProperNames T) {para : List (PyStr × PyStr)}
    {s j : Nat} (hr : ShapedPara para s j) {st p : XElem} (hs : (entries "Style" T)[s]? = some st) (hj : (entries "ParaShape" T)[j]? = some p)
    (F : XElem → List PyStr) :
    ((entries "ParaShape" T).zipIdx.flatMap fun e => if (classesOf (paragraphClass doc para)).contains (paraClass e.2) then F e.1 else []) =
      (if attrOf st.1 "parashape-id" = some (natStr j) then [] else F p) ∧
    ((entries "Style" T).flatMap fun s' => if (classesOf (paragraphClass doc para)).contains (styleClass s') then
      (if attrOf s'.1 "kind" = some (lit "paragraph") then
        (nthOf doc "ParaShape" (xpathNumber (attrValue s'.1 "parashape-id"))).flatMap F else []) else []) =
      if attrOf st.1 "kind" = some (lit "paragraph") then
        (nthOf doc "ParaShape" (xpathNumber (attrValue st.1 "parashape-id"))).flatMap F else [] := by
  have p1 := hr.style
  have p2 := hr.shape
  rw [decimal_nat] at p1 p2
  have hm : st ∈ entries "Style" T := List.mem_of_getElem? hs
  obtain ⟨more, m1, m2⟩ := paragraph_classes_shape h p1 hs p2 (hN.ident st hm)
  have shapes : ∀ i, (classesOf (paragraphClass doc para)).contains (paraClass i) =
      if attrOf st.1 "parashape-id" = some (natStr j) then false else decide (i = 0 + j) := by
    intro i
    have n1 : paraClass i ≠ styleClass st := fun e => (hN.shapes st hm).1 ⟨natStr i, e⟩
    have n2 : paraClass i ∉ more := fun w => bullet_not_para _ (m2 _ w) i rfl
    rw [m1]
    by_cases c : attrOf st.1 "parashape-id" = some (natStr j)
    · rw [if_pos c, if_pos c, ← Bool.not_eq_true, List.contains_iff_mem]
      simp [n1, n2]
    · rw [if_neg c, if_neg c, Nat.zero_add]
      by_cases e : i = j
      · rw [decide_eq_true e, List.contains_iff_mem]
        simp [e]
      · rw [decide_eq_false e, ← Bool.not_eq_true, List.contains_iff_mem]
        simp only [List.cons_append, List.nil_append, List.mem_cons, n1, n2, or_false, false_or]
        exact fun g => e (paraClass_inj g)
  constructor
  · simp only [shapes]
    by_cases c : attrOf st.1 "parashape-id" = some (natStr j)
    · simp [c]
    · simp only [c, if_false, decide_eq_true_eq]
      rw [flatMap_index (fun e : XElem => F e) _ j 0, hj]
      simp
  · rw [← flatMap_key styleClass _ hN.distinct st hm (fun s' : XElem => if attrOf s'.1 "kind" = some (lit "paragraph") then
        (nthOf doc "ParaShape" (xpathNumber (attrValue s'.1 "parashape-id"))).flatMap F else [])]
    refine List.flatMap_congr fun s' hs' => ?_
    have e : (classesOf (paragraphClass doc para)).contains (styleClass s') = decide (styleClass s' = styleClass st) := by
      have n1 : more.contains (styleClass s') = false := by
        rw [← Bool.not_eq_true, List.contains_iff_mem]
        exact fun w => (hN.shapes s' hs').2 (m2 _ w)
      have n2 : (if attrOf st.1 "parashape-id" = some (natStr j) then [] else [paraClass j]).contains (styleClass s') = false := by
        rw [← Bool.not_eq_true, List.contains_iff_mem]
        split
        · simp
        · rw [List.mem_singleton]
          exact fun g => (hN.shapes s' hs').1 ⟨natStr j, g.symm⟩
      rw [m1, List.contains_cons, List.contains_append, n1, n2, Bool.or_false, Bool.or_false]
      by_cases e : styleClass s' = styleClass st <;> simp [e]
    rw [e]
    by_cases e : styleClass s' = styleClass st <;> simp [e]

/-- What the rules declare for a paragraph: that of its style, if it is one of paragraphs, and that of its own shape, if it is not the one of the style. -/
theorem declared_paragraph {doc T : Forest XNode} {ids : List (PyStr × PyStr)} (h : TablesAre doc ids T) (hN : ProperNames T) {para : List (PyStr × PyStr)}
    {s j : Nat} (hr : ShapedPara para s j) {st p : XElem} (hs : (entries "Style" T)[s]? = some st) (hj : (entries "ParaShape" T)[j]? = some p)
    {prop : PyStr} (hp : prop ∉ charNames) (rest : List Box) :
    cssDeclared (tableRules doc T) prop ((lit "p", paragraphClass doc para) :: rest) =
      (if attrOf st.1 "kind" = some (lit "paragraph") then
        (nthOf doc "ParaShape" (xpathNumber (attrValue st.1 "parashape-id"))).flatMap (shapeValues prop) else []).map (fun v => ((1, 0), v)) ++
      (if attrOf st.1 "parashape-id" = some (natStr j) then [] else shapeValues prop p).map (fun v => ((1, 1), v)) := by
  obtain ⟨second, first⟩ := para_select h hN hr hs hj (shapeValues prop)
  rw [declared_shape doc T hp hN.ident, second, first]

theorem winning_two (σ τ : Nat × Nat) (h : weaker τ σ = false) (xs ys : List PyStr) :
    (winning (xs.map (fun v => (σ, v)) ++ ys.map (fun v => (τ, v)))).map (·.2) = ys.getLast?.orElse fun _ => xs.getLast? := by
  generalize hn : ys.length = n
  cases n with
  | zero => rw [List.length_eq_zero_iff.1 hn]; simp [winning_same, Function.comp_def]
  | succ n =>
    have hne : ys ≠ [] := by rintro rfl; simp at hn
    have e := (List.dropLast_concat_getLast hne).symm
    have key : ∀ zs : List PyStr, ∀ b, winning (xs.map (fun v => (σ, v)) ++ zs.map (fun v => (τ, v))) = some b →
        weaker τ b.1 = false := by
      intro zs b hb
      have hm : ∀ ds : List ((Nat × Nat) × PyStr), ∀ b, winning ds = some b → b ∈ ds := by
        intro ds
        generalize hl : ds.length = l
        induction l generalizing ds with
        | zero => intro b hb; rw [List.length_eq_zero_iff.1 hl] at hb; cases hb
        | succ l ih =>
          intro b hb
          have hd : ds ≠ [] := by rintro rfl; simp at hl
          have ed := (List.dropLast_concat_getLast hd).symm
          rw [ed, winning_append] at hb
          rw [ed, List.mem_append]
          cases hw : winning ds.dropLast with
          | none => rw [hw] at hb; simp only [Option.some.injEq] at hb; exact .inr (by simp [hb])
          | some c =>
            rw [hw] at hb
            simp only at hb
            split at hb
            · cases hb; exact .inl (ih _ (by simp [hl]) _ hw)
            · cases hb; exact .inr (by simp)
      rcases List.mem_append.1 (hm _ _ hb) with hb | hb
      · obtain ⟨v, _, rfl⟩ := List.mem_map.1 hb; exact h
      · obtain ⟨v, _, rfl⟩ := List.mem_map.1 hb; exact weaker_irrefl _
    rw [e, List.map_append, List.map_singleton, ← List.append_assoc, winning_append]
    rw [List.getLast?_concat]
    cases hw : winning (xs.map (fun v => (σ, v)) ++ ys.dropLast.map (fun v => (τ, v))) with
    | none => rfl
    | some b => simp [key _ _ hw]

/-- The padding that a paragraph shape declares. -/
def paddingText (as : List (PyStr × PyStr)) : List PyStr :=
  match xpathInt (attrValue as "indent") with
  | some n => if n < 0 then [ptOf (some (-n))] else []
  | none => []

def marginText (as : List (PyStr × PyStr)) : PyStr :=
  ptOf (xpathInt (attrValue as "doubled-margin-top")) ++ lit " " ++ ptOf (xpathInt (attrValue as "doubled-margin-right")) ++ lit " " ++
    ptOf (xpathInt (attrValue as "doubled-margin-bottom")) ++ lit " " ++ ptOf (xpathInt (attrValue as "doubled-margin-left"))

theorem paddingText_ne (as : List (PyStr × PyStr)) : ∀ v ∈ paddingText as, v ≠ [] := by
  intro v hv
  unfold paddingText at hv
  split at hv
  · split at hv
    · obtain rfl := List.mem_singleton.1 hv; exact ptOf_ne _
    · simp at hv
  · simp at hv

theorem marginText_ne (as : List (PyStr × PyStr)) : marginText as ≠ [] := by
  unfold marginText
  intro h
  exact ptOf_ne _ (List.append_eq_nil_iff.1 h).2

theorem paraDecls_eq (s : XElem) : ∃ more : List PyStr, paraDecls s = [(lit "margin", marginText s.1), (lit "text-align", textAlign s.1),
    (lit "text-indent", ptOf (xpathInt (attrValue s.1 "indent")))] ++ (paddingText s.1).map (fun v => (lit "padding-left", v)) ++
    more.map (fun v => (lit "min-height", v)) := by
  refine ⟨if attrValue s.1 "linespacing-type" = lit "ratio" then [numberStr 2 (xpathInt (attrValue s.1 "linespacing")) ++ lit "em"] else [], ?_⟩
  unfold paraDecls indentDecls paddingText marginText
  cases xpathInt (attrValue s.1 "indent") with
  | none => by_cases h : attrValue s.1 "linespacing-type" = lit "ratio" <;> simp [h]
  | some n => by_cases g : n < 0 <;> by_cases h : attrValue s.1 "linespacing-type" = lit "ratio" <;> simp [g, h]

theorem filter_named (n prop : PyStr) (vs : List PyStr) (hv : n = prop → ∀ v ∈ vs, v ≠ []) :
    ((vs.map fun v => (n, v)).filter fun d => decide (d.1 = prop ∧ d.2 ≠ [])).map (·.2) = if n = prop then vs else [] := by
  by_cases e : n = prop
  · rw [if_pos e, List.filter_eq_self.2]
    · simp [Function.comp_def]
    · intro d hd
      obtain ⟨v, h, rfl⟩ := List.mem_map.1 hd
      simpa [e] using hv e v h
  · rw [if_neg e, List.filter_eq_nil_iff.2]
    · rfl
    · intro d hd
      obtain ⟨v, h, rfl⟩ := List.mem_map.1 hd
      simp [e]

theorem shapeValues_eq (prop : PyStr) (hp : prop ≠ lit "min-height") (s : XElem) : shapeValues prop s =
    (if lit "margin" = prop then [marginText s.1] else []) ++ (if lit "text-align" = prop then [textAlign s.1] else []) ++
    (if lit "text-indent" = prop then [ptOf (xpathInt (attrValue s.1 "indent"))] else []) ++ (if lit "padding-left" = prop then paddingText s.1 else []) := by
  obtain ⟨more, e⟩ := paraDecls_eq s
  have one : ∀ n v : PyStr, [(n, v)] = [v].map fun v => (n, v) := fun _ _ => rfl
  unfold shapeValues
  rw [e, show ∀ a b c : PyStr × PyStr, [a, b, c] = [a] ++ [b] ++ [c] from fun _ _ _ => rfl]
  simp only [List.filter_append, List.map_append]
  rw [one, one, one, filter_named _ _ _ (fun _ => by simpa using marginText_ne _), filter_named _ _ _ (fun _ => by simpa using textAlign_ne _),
    filter_named _ _ _ (fun _ => by simpa using ptOf_ne _), filter_named _ _ _ (fun _ => paddingText_ne _), filter_named _ _ _ (fun e => absurd e.symm hp),
    if_neg (Ne.symm hp), List.append_nil]

theorem align_values (s : XElem) : shapeValues (lit "text-align") s = [textAlign s.1] := by
  rw [shapeValues_eq _ (by decide +kernel), if_neg (by decide +kernel), if_pos rfl, if_neg (by decide +kernel), if_neg (by decide +kernel)]
  rfl

theorem margin_values (s : XElem) : shapeValues (lit "margin") s = [marginText s.1] := by
  rw [shapeValues_eq _ (by decide +kernel), if_pos rfl, if_neg (by decide +kernel), if_neg (by decide +kernel), if_neg (by decide +kernel)]
  rfl

theorem indent_values (s : XElem) : shapeValues (lit "text-indent") s = [ptOf (xpathInt (attrValue s.1 "indent"))] := by
  rw [shapeValues_eq _ (by decide +kernel), if_neg (by decide +kernel), if_neg (by decide +kernel), if_pos rfl, if_neg (by decide +kernel)]
  rfl

theorem padding_values (s : XElem) : shapeValues (lit "padding-left") s = paddingText s.1 := by
  rw [shapeValues_eq _ (by decide +kernel), if_neg (by decide +kernel), if_neg (by decide +kernel), if_neg (by decide +kernel), if_pos rfl]
  rfl

theorem styled_align {doc T : Forest XNode} {ids : List (PyStr × PyStr)} (h : TablesAre doc ids T) (hN : ProperNames T) (embed : Bool)
    {para : List (PyStr × PyStr)} {s j : Nat} (hp : ShapedPara para s j) {st p : XElem} (hs : (entries "Style" T)[s]? = some st)
    (hj : (entries "ParaShape" T)[j]? = some p) (hk : attrOf st.1 "parashape-id" = some (Spec.decimal j) → attrOf st.1 "kind" = some (lit "paragraph"))
    (rest : List Box) {a : PyStr} (ha : attrOf p.1 "align" = some a) :
    styledValue (pageRules embed doc) (lit "text-align") ((lit "p", paragraphClass doc para) :: rest) = some (shownAlign a) := by
  have hd := declared_paragraph h hN hp hs hj (prop := lit "text-align") (by decide +kernel) rest
  have w : (winning (cssDeclared (tableRules doc T) (lit "text-align") ((lit "p", paragraphClass doc para) :: rest))).map (·.2) = some (textAlign p.1) := by
    rw [hd, winning_two _ _ rfl, align_values]
    rw [decimal_nat] at hk
    by_cases c : attrOf st.1 "parashape-id" = some (natStr j)
    · rw [if_pos c, if_pos (hk c), attrValue_eq, c, Option.getD_some, xpathNumber_natStr, nthOf_eq h _ (by simp), hj]
      simp [align_values]
    · rw [if_neg c]; rfl
  rw [styledValue, pageRules_eq h, declared_page _ _ _ _ (by decide +kernel), ← textAlign_eq _ _ ha]
  cases hw : winning (cssDeclared (tableRules doc T) (lit "text-align") ((lit "p", paragraphClass doc para) :: rest)) with
  | none => rw [hw] at w; cases w
  | some b => rw [hw] at w; exact w

/-! ### ODT -/

theorem common_paraProps {doc T : Forest XNode} {ids : List (PyStr × PyStr)} (h : TablesAre doc ids T) {st d : XElem} {q : Nat}
    (hq : attrOf st.1 "parashape-id" = some (Spec.decimal q)) (hd : (entries "ParaShape" T)[q]? = some d) :
    (commonStyle doc st).paraProps = shapeProps d ∧ (commonStyle doc st).parent = none := by
  refine ⟨?_, rfl⟩
  unfold commonStyle
  simp only
  rw [attrValue_eq, hq, decimal_nat]
  simp only [Option.getD_some, xpathNumber_natStr, idEntries_eq h, hd, Option.toList_some, List.flatMap_cons, List.flatMap_nil, List.append_nil]

theorem paraStyle_value {doc T : Forest XNode} {ids : List (PyStr × PyStr)} (h : TablesAre doc ids T) (hN : OfficeNames T) {st d : XElem} {q : Nat}
    (hst : st ∈ entries "Style" T) (hq : attrOf st.1 "parashape-id" = some (Spec.decimal q)) (hd : (entries "ParaShape" T)[q]? = some d)
    (prop : String) (n : Nat) : paraStyleValue (automaticStyles doc ++ commonStyles doc) prop (n + 1) (officeName st) = lastSet (shapeProps d) prop := by
  rw [paraStyleValue, find_style h hN hst]
  obtain ⟨a, b⟩ := common_paraProps h hq hd
  simp only [Option.bind_some, a, b, Option.bind_none]
  cases lastSet (shapeProps d) prop <;> rfl

theorem xpath_decimal {as : List (PyStr × PyStr)} {name : String} {n : Nat} (h : attrOf as name = some (Spec.decimal n)) :
    xpathNumber (attrValue as name) = some n := by
  rw [attrValue_eq, h, decimal_nat]; exact xpathNumber_natStr n

/-- What is set for a paragraph: by its own style, if it has one, and by the style of the document. -/
theorem para_value {doc T : Forest XNode} {ids : List (PyStr × PyStr)} (h : TablesAre doc ids T) (hN : OfficeNames T) (hP : ParagraphsNumbered doc)
    {st d x : XElem} {q s j : Nat} {p : XElem} (hp : p ∈ elementsNamed "Paragraph" doc) (hs : ShapedPara p.1 s j)
    (hst : (entries "Style" T)[s]? = some st) (hq : attrOf st.1 "parashape-id" = some (Spec.decimal q)) (hd : (entries "ParaShape" T)[q]? = some d)
    (hx : (entries "ParaShape" T)[j]? = some x)
    (hB : ∃ as D bs B, (as, D) ∈ entries "HwpDoc" doc ∧ (bs, B) ∈ entries "BodyText" D)
    (prop : String) (i : Nat) (before : List PyStr) (as : List (PyStr × PyStr)) (text : PyStr) :
    paraValue (automaticStyles doc) (commonStyles doc) prop (odtRun doc p.1 i before as text).paraStyle =
      if q ≠ j ∨ attrOf p.1 "new-page" = some (lit "1") then
        (lastSet (shapeProps x ++ if attrOf p.1 "new-page" = some (lit "1") then [(lit "fo:break-before", lit "page")] else []) prop).orElse
          fun _ => lastSet (shapeProps d) prop
      else lastSet (shapeProps d) prop := by
  obtain ⟨L, hL⟩ := styles_length h
  unfold paraValue
  rw [hL]
  have hsn := xpath_decimal hs.style
  have hjn := xpath_decimal hs.shape
  have hqn : xpathNumber (firstAttr [st] "parashape-id") = some q := by
    unfold firstAttr
    rw [attrNodes_one, hq, decimal_nat]
    exact xpathNumber_natStr q
  have hstm : st ∈ entries "Style" T := List.mem_of_getElem? hst
  have np : (attrValue p.1 "new-page" == lit "1") = decide (attrOf p.1 "new-page" = some (lit "1")) := by
    rw [attrValue_eq]
    cases attrOf p.1 "new-page" with
    | none => decide +kernel
    | some v => by_cases e : v = lit "1" <;> simp [e]
  have own : ownParagraph [st] p.1 = decide (q ≠ j ∨ attrOf p.1 "new-page" = some (lit "1")) := by
    unfold ownParagraph
    rw [hqn, hjn, np]
    simp only [numbersDiffer]
    by_cases e : q = j <;> by_cases g : attrOf p.1 "new-page" = some (lit "1") <;> simp [e, g]
  unfold odtRun
  simp only [hsn, nthInIds_eq h, hst, Option.toList_some, own, decide_eq_true_eq]
  by_cases ho : q ≠ j ∨ attrOf p.1 "new-page" = some (lit "1")
  · rw [if_pos ho, if_pos ho]
    have ho' : ownParagraph (nthOf doc "Style" (xpathNumber (attrValue p.1 "style-id"))) p.1 = true := by
      rw [hsn, nthOf_eq h _ (by simp), hst]
      show ownParagraph [st] p.1 = true
      rw [own]; exact decide_eq_true ho
    obtain ⟨a, D, b, B, h1, h2⟩ := hB
    have hm := automatic_mem h1 h2 hp (paragraphStyle_mem ho')
    rw [paraStyleValue, find_paragraph h hN hP hp hm]
    simp only [paragraphStyle, Option.bind_some, ownParaProps, hsn, hjn, np, decide_eq_true_eq, nthOf_eq h "Style" (by simp),
      nthOf_eq h "ParaShape" (by simp), hst, hx, Option.toList_some, List.flatMap_cons, List.flatMap_nil, List.append_nil]
    congr 1
    funext _
    show paraStyleValue _ prop (L + 1) (odtStyleName [st]) = _
    rw [odtStyleName_one, paraStyle_value h hN hstm hq hd]
  · rw [if_neg ho, if_neg ho, odtStyleName_one]
    exact paraStyle_value h hN hstm hq hd prop (L + 1)

/-- The names of the properties for the distance of lines. -/
def spacingNames : List PyStr := ["fo:line-height", "style:vertical-align", "style:line-spacing"].map lit

theorem spacing_names (as : List (PyStr × PyStr)) : ∀ d ∈ spacingProps as, d.1 ∈ spacingNames := by
  intro d hd
  have m : ∀ n ∈ ["fo:line-height", "style:vertical-align", "style:line-spacing"], lit n ∈ spacingNames := by decide +kernel
  unfold spacingProps at hd
  simp only at hd
  split at hd
  · obtain rfl := List.mem_singleton.1 hd; exact m "fo:line-height" (by decide)
  split at hd
  · simp only [List.mem_cons, List.not_mem_nil, or_false] at hd
    rcases hd with rfl | rfl
    · exact m "fo:line-height" (by decide)
    · exact m "style:vertical-align" (by decide)
  split at hd
  · obtain rfl := List.mem_singleton.1 hd; exact m "style:line-spacing" (by decide)
  · simp at hd

theorem lastSet_shape (y : XElem) {prop : String} (h : lit prop ∉ spacingNames) :
    lastSet (shapeProps y) prop = (lastSet (marginProps y.1) prop).orElse fun _ => if lit "fo:text-align" = lit prop then some (officeAlign y.1) else none := by
  unfold shapeProps
  rw [lastSet_append, lastSet_none (a := spacingProps y.1)]
  · rfl
  · exact fun d hd e => h (e ▸ spacing_names _ d hd)

theorem shape_align (y : XElem) : lastSet (shapeProps y) "fo:text-align" = some (officeAlign y.1) := by
  rw [lastSet_shape y (by decide +kernel), if_pos rfl, lastSet_none]
  · rfl
  · intro d hd
    have n1 : lit "fo:text-indent" ≠ lit "fo:text-align" := by decide +kernel
    have n2 : lit "fo:margin-left" ≠ lit "fo:text-align" := by decide +kernel
    have n3 : lit "fo:margin-right" ≠ lit "fo:text-align" := by decide +kernel
    have n4 : lit "fo:margin-top" ≠ lit "fo:text-align" := by decide +kernel
    have n5 : lit "fo:margin-bottom" ≠ lit "fo:text-align" := by decide +kernel
    simp only [marginProps, List.mem_cons, List.not_mem_nil, or_false] at hd
    rcases hd with rfl | rfl | rfl | rfl | rfl
    exacts [n1, n2, n3, n4, n5]

theorem shape_break (y : XElem) : lastSet (shapeProps y) "fo:break-before" = none := by
  rw [lastSet_shape y (by decide +kernel), if_neg (by decide +kernel), lastSet_none]
  · rfl
  · intro d hd
    have n1 : lit "fo:text-indent" ≠ lit "fo:break-before" := by decide +kernel
    have n2 : lit "fo:margin-left" ≠ lit "fo:break-before" := by decide +kernel
    have n3 : lit "fo:margin-right" ≠ lit "fo:break-before" := by decide +kernel
    have n4 : lit "fo:margin-top" ≠ lit "fo:break-before" := by decide +kernel
    have n5 : lit "fo:margin-bottom" ≠ lit "fo:break-before" := by decide +kernel
    simp only [marginProps, List.mem_cons, List.not_mem_nil, or_false] at hd
    rcases hd with rfl | rfl | rfl | rfl | rfl
    exacts [n1, n2, n3, n4, n5]

/-- The value of a property that each paragraph shape sets. -/
theorem para_set {doc T : Forest XNode} {ids : List (PyStr × PyStr)} (h : TablesAre doc ids T) (hN : OfficeNames T) (hP : ParagraphsNumbered doc)
    {st d x : XElem} {q s j : Nat} {p : XElem} (hp : p ∈ elementsNamed "Paragraph" doc) (hs : ShapedPara p.1 s j)
    (hst : (entries "Style" T)[s]? = some st) (hq : attrOf st.1 "parashape-id" = some (Spec.decimal q)) (hd : (entries "ParaShape" T)[q]? = some d)
    (hx : (entries "ParaShape" T)[j]? = some x)
    (hB : ∃ as D bs B, (as, D) ∈ entries "HwpDoc" doc ∧ (bs, B) ∈ entries "BodyText" D)
    (prop : String) (hb : lit "fo:break-before" ≠ lit prop) {v : PyStr} (hv : lastSet (shapeProps x) prop = some v)
    (i : Nat) (before : List PyStr) (as : List (PyStr × PyStr)) (text : PyStr) :
    paraValue (automaticStyles doc) (commonStyles doc) prop (odtRun doc p.1 i before as text).paraStyle = some v := by
  rw [para_value h hN hP hp hs hst hq hd hx hB]
  have hbr : lastSet (if attrOf p.1 "new-page" = some (lit "1") then [(lit "fo:break-before", lit "page")] else []) prop = none :=
    lastSet_none fun d hd => by
      split at hd
      · obtain rfl := List.mem_singleton.1 hd; exact hb
      · simp at hd
  split
  · rw [lastSet_append, hbr, hv]; rfl
  · rename_i g
    obtain rfl : q = j := by
      by_cases e : q = j
      · exact e
      · exact absurd (Or.inl e) g
    obtain rfl : d = x := Option.some.inj (hd.symm.trans hx)
    exact hv

end Hwp
