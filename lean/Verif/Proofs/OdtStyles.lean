import Verif.Spec.OdtStyles
import Verif.Proofs.Css
set_option autoImplicit false
set_option linter.unusedSimpArgs false
set_option linter.unusedVariables false
set_option Elab.async false
namespace Hwp
open Spec

/-! ### Tables -/

theorem idEntries_eq {doc T : Forest XNode} {ids : List (PyStr × PyStr)} (h : TablesAre doc ids T) (name : String) :
    idEntries doc name = entries name T := by
  obtain ⟨as, D, h1, bs, I, h2, h3⟩ := h.hwpdoc
  unfold idEntries
  rw [forEach_entries, h1]
  simp only [List.flatMap_cons, List.flatMap_nil, List.append_nil]
  rw [forEach_entries, h2]
  simp only [List.flatMap_cons, List.flatMap_nil, List.append_nil]
  rw [forEach_entries, h3]
  simp only [List.flatMap_cons, List.flatMap_nil, List.append_nil, childrenNamed_eq]

theorem nthInIds_eq {doc T : Forest XNode} {ids : List (PyStr × PyStr)} (h : TablesAre doc ids T) (name : String) (n : Nat) :
    nthInIds doc name (some n) = ((entries name T)[n]?).toList := by
  obtain ⟨as, D, h1, bs, I, h2, h3⟩ := h.hwpdoc
  unfold nthInIds
  show forEach (lit "HwpDoc") _ doc = _
  rw [forEach_entries, h1]
  simp only [List.flatMap_cons, List.flatMap_nil, List.append_nil]
  rw [forEach_entries, h2]
  simp only [List.flatMap_cons, List.flatMap_nil, List.append_nil]
  rw [forEach_entries, h3]
  simp only [List.flatMap_cons, List.flatMap_nil, List.append_nil, childrenNamed_eq]

theorem elemsIn_eq (name : String) (f : Forest XNode) : elemsIn (lit name) f = elementsNamed name f := by
  induction f with
  | nil => rfl
  | node a cs sibs ih1 ih2 =>
    cases a with
    | text t => rw [elemsIn, elementsNamed]; exact ih2
    | elem n as => rw [elemsIn, elementsNamed, ih1, ih2]

theorem ncName_eq (s : XElem) : ncName (attrValue s.1 "local-name") = officeName s := by
  rw [attrValue_eq]
  have : ∀ c : Nat, prohibitedChars.contains c = decide (c ∈ notInNames.map Char.toNat) := by
    intro c
    have e : prohibitedChars = notInNames.map Char.toNat := by decide +kernel
    rw [e]
    simp only [List.contains_eq_mem]
  unfold ncName officeName
  congr 1
  funext c
  rw [this c]
  simp only [decide_eq_true_eq]
  rfl

theorem odtStyleName_one (s : XElem) : odtStyleName [s] = officeName s := by
  rw [← ncName_eq]; simp [odtStyleName]

/-! ### Names -/

theorem nextNumber_decimal (n : Nat) : nextNumber (natStr n) = natStr (n + 1) := by
  unfold nextNumber; rw [xpathNumber_natStr]

theorem natStr_inj {m n : Nat} (h : natStr m = natStr n) : m = n := by
  have e := congrArg xpathNumber h
  rw [xpathNumber_natStr, xpathNumber_natStr] at e
  exact Option.some.inj e

theorem natStr_dash (n : Nat) : 0x2D ∉ natStr n := by
  intro h; have := natStr_digit n _ h; omega

theorem threeNumbers_inj {a b c a' b' c' : Nat}
    (h : natStr a ++ lit "-" ++ natStr b ++ lit "-" ++ natStr c = natStr a' ++ lit "-" ++ natStr b' ++ lit "-" ++ natStr c') :
    a = a' ∧ b = b' ∧ c = c' := by
  have p : ∀ a b c : Nat, partsAt 0x2D (natStr a ++ lit "-" ++ natStr b ++ lit "-" ++ natStr c) = [natStr a, natStr b, natStr c] := by
    intro a b c
    rw [show lit "-" = [0x2D] from by decide]
    have e : natStr a ++ [0x2D] ++ natStr b ++ [0x2D] ++ natStr c = natStr a ++ 0x2D :: (natStr b ++ 0x2D :: natStr c) := by simp
    rw [e, partsAt_cut _ _ _ (natStr_dash a), partsAt_cut _ _ _ (natStr_dash b), partsAt_self _ _ (natStr_dash c)]
  have e := congrArg (partsAt 0x2D) h
  rw [p, p] at e
  simp only [List.cons.injEq, and_true] at e
  exact ⟨natStr_inj e.1, natStr_inj e.2.1, natStr_inj e.2.2⟩

/-- A paragraph of a document with numbered paragraphs is known by the name made of its number. -/
theorem same_paragraph {doc : Forest XNode} (h : ParagraphsNumbered doc) {p q : XElem} (hp : p ∈ elementsNamed "Paragraph" doc)
    (hq : q ∈ elementsNamed "Paragraph" doc) (e : nextNumber (attrValue p.1 "paragraph-id") = nextNumber (attrValue q.1 "paragraph-id")) : p = q := by
  obtain ⟨m, hm⟩ := h.number p hp
  obtain ⟨n, hn⟩ := h.number q hq
  have i := List.inj_on_of_nodup_map h.distinct hp hq
  apply i
  rw [attrValue_eq, attrValue_eq, hm, hn, decimal_nat, decimal_nat] at e
  simp only [Option.getD_some, nextNumber_decimal] at e
  have := natStr_inj e
  rw [hm, hn, show m = n from by omega]

theorem nextNumber_of {doc : Forest XNode} (h : ParagraphsNumbered doc) {p : XElem} (hp : p ∈ elementsNamed "Paragraph" doc) :
    ∃ n, nextNumber (attrValue p.1 "paragraph-id") = natStr (n + 1) := by
  obtain ⟨m, hm⟩ := h.number p hp
  exact ⟨m, by rw [attrValue_eq, hm, decimal_nat]; exact nextNumber_decimal m⟩

theorem ownTextName_inj {doc : Forest XNode} (h : ParagraphsNumbered doc) {p q : XElem} (hp : p ∈ elementsNamed "Paragraph" doc)
    (hq : q ∈ elementsNamed "Paragraph" doc) {i j i' j' : Nat} (e : ownTextName p.1 i j = ownTextName q.1 i' j') : p = q ∧ i = i' ∧ j = j' := by
  obtain ⟨m, hm⟩ := nextNumber_of h hp
  obtain ⟨n, hn⟩ := nextNumber_of h hq
  have e' := e
  unfold ownTextName at e'
  rw [hm, hn] at e'
  simp only [List.append_assoc] at e'
  have e2 := List.append_cancel_left e'
  simp only [← List.append_assoc] at e2
  obtain ⟨a, b, c⟩ := threeNumbers_inj e2
  exact ⟨same_paragraph h hp hq (by rw [hm, hn, a]), b, c⟩

theorem ownParagraphName_inj {doc : Forest XNode} (h : ParagraphsNumbered doc) {p q : XElem} (hp : p ∈ elementsNamed "Paragraph" doc)
    (hq : q ∈ elementsNamed "Paragraph" doc) (e : ownParagraphName p.1 = ownParagraphName q.1) : p = q :=
  same_paragraph h hp hq (List.append_cancel_left e)

/-! ### Looking styles up -/

theorem styleFor_some {styles : List OdtStyle} {family : String} {name : PyStr} {s : OdtStyle} (h : styleFor styles family name = some s) :
    s ∈ styles ∧ s.family = lit family ∧ s.name = name := by
  induction styles with
  | nil => simp [styleFor] at h
  | cons t ts ih =>
    rw [styleFor] at h
    split at h
    · next c => obtain rfl := Option.some.inj h; exact ⟨by simp, c⟩
    · obtain ⟨a, b⟩ := ih h; exact ⟨by simp [a], b⟩

theorem styleFor_mem {styles : List OdtStyle} {family : String} {s : OdtStyle} (h : s ∈ styles) (hf : s.family = lit family) :
    ∃ t, styleFor styles family s.name = some t := by
  induction styles with
  | nil => simp at h
  | cons t ts ih =>
    rw [styleFor]
    split
    · exact ⟨_, rfl⟩
    · next c =>
      rcases List.mem_cons.1 h with rfl | h
      · exact absurd ⟨hf, rfl⟩ c
      · exact ih h

/-- A style is found if all with its family and name agree with it. -/
theorem styleFor_unique {styles : List OdtStyle} {family : String} {s : OdtStyle} (h : s ∈ styles) (hf : s.family = lit family)
    (hu : ∀ t ∈ styles, t.family = lit family → t.name = s.name → t = s) : styleFor styles family s.name = some s := by
  obtain ⟨t, ht⟩ := styleFor_mem h hf
  obtain ⟨a, b, c⟩ := styleFor_some ht
  rw [ht, hu t a b c]

theorem lastSet_append (a b : List (PyStr × PyStr)) (prop : String) : lastSet (a ++ b) prop = (lastSet b prop).orElse fun _ => lastSet a prop := by
  induction a with
  | nil => simp [lastSet]
  | cons p ps ih =>
    simp only [List.cons_append, lastSet, ih]
    cases lastSet b prop <;> simp

theorem lastSet_none {a : List (PyStr × PyStr)} {prop : String} (h : ∀ d ∈ a, d.1 ≠ lit prop) : lastSet a prop = none := by
  induction a with
  | nil => rfl
  | cons p ps ih =>
    rw [lastSet, ih (fun d hd => h d (by simp [hd])), if_neg (h p (by simp))]
    rfl

/-! ### The styles of the document -/

theorem mem_automatic {doc : Forest XNode} {s : OdtStyle} (h : s ∈ automaticStyles doc) :
    ∃ p ∈ elementsNamed "Paragraph" doc, s ∈ paragraphStyles doc p := by
  unfold automaticStyles at h
  rw [forEach_entries] at h
  obtain ⟨e, _, h⟩ := List.mem_flatMap.1 h
  rw [forEach_entries] at h
  obtain ⟨e, _, h⟩ := List.mem_flatMap.1 h
  rw [elemsIn_eq] at h
  exact List.mem_flatMap.1 h

theorem automatic_mem {doc : Forest XNode} {as bs : List (PyStr × PyStr)} {D B : Forest XNode} (h1 : (as, D) ∈ entries "HwpDoc" doc)
    (h2 : (bs, B) ∈ entries "BodyText" D) {p : XElem} (hp : p ∈ elementsNamed "Paragraph" doc) {s : OdtStyle} (hs : s ∈ paragraphStyles doc p) :
    s ∈ automaticStyles doc := by
  unfold automaticStyles
  rw [forEach_entries]
  refine List.mem_flatMap.2 ⟨_, h1, ?_⟩
  rw [forEach_entries]
  refine List.mem_flatMap.2 ⟨_, h2, ?_⟩
  rw [elemsIn_eq]
  exact List.mem_flatMap.2 ⟨p, hp, hs⟩

/-- The style of a run of text. -/
def textStyle (doc : Forest XNode) (p : XElem) (i j : Nat) (t : XElem) : OdtStyle :=
  { family := lit "text", name := ownTextName p.1 (i + 1) (j + 1), parent := none,
    props := (nthOf doc "CharShape" (xpathNumber (attrValue t.1 "charshape-id"))).flatMap (charProps doc), paraProps := [] }

/-- The style of a paragraph. -/
def paragraphStyle (doc : Forest XNode) (p : XElem) : OdtStyle :=
  { family := lit "paragraph", name := ownParagraphName p.1,
    parent := (nthOf doc "Style" (xpathNumber (attrValue p.1 "style-id"))).getLast?.map fun s => odtStyleName [s], props := [],
    paraProps := ownParaProps doc p.1 }

theorem mem_paragraphStyles {doc : Forest XNode} {p : XElem} {s : OdtStyle} (h : s ∈ paragraphStyles doc p) :
    s = paragraphStyle doc p ∨ ∃ i l j t, (entries "LineSeg" p.2)[i]? = some l ∧ (entries "Text" l.2)[j]? = some t ∧ s = textStyle doc p i j t := by
  unfold paragraphStyles at h
  rcases List.mem_append.1 h with h | h
  · split at h
    · left; exact List.mem_singleton.1 h
    · simp at h
  · right
    obtain ⟨l, hl, h⟩ := List.mem_flatMap.1 h
    obtain ⟨t, ht, h⟩ := List.mem_flatMap.1 h
    split at h
    · rw [childrenNamed_eq] at hl ht
      refine ⟨l.2, l.1, t.2, t.1, ?_, ?_, List.mem_singleton.1 h⟩
      · obtain ⟨a, b⟩ := List.mem_zipIdx_iff_getElem?.1 hl |> fun e => (⟨e, trivial⟩ : _ ∧ True); exact a
      · obtain ⟨a, b⟩ := List.mem_zipIdx_iff_getElem?.1 ht |> fun e => (⟨e, trivial⟩ : _ ∧ True); exact a
    · simp at h

theorem textStyle_mem {doc : Forest XNode} {p : XElem} {i j : Nat} {l t : XElem} (hl : (entries "LineSeg" p.2)[i]? = some l)
    (ht : (entries "Text" l.2)[j]? = some t) (ho : ownText (nthOf doc "Style" (xpathNumber (attrValue p.1 "style-id"))) t.1 = true) :
    textStyle doc p i j t ∈ paragraphStyles doc p := by
  unfold paragraphStyles
  refine List.mem_append.2 (.inr ?_)
  refine List.mem_flatMap.2 ⟨(l, i), by rw [childrenNamed_eq]; exact List.mem_zipIdx_iff_getElem?.2 hl, ?_⟩
  refine List.mem_flatMap.2 ⟨(t, j), by rw [childrenNamed_eq]; exact List.mem_zipIdx_iff_getElem?.2 ht, ?_⟩
  simp only [ho, if_true, List.mem_singleton]
  rfl

theorem paragraphStyle_mem {doc : Forest XNode} {p : XElem}
    (ho : ownParagraph (nthOf doc "Style" (xpathNumber (attrValue p.1 "style-id"))) p.1 = true) :
    paragraphStyle doc p ∈ paragraphStyles doc p := by
  unfold paragraphStyles
  refine List.mem_append.2 (.inl ?_)
  simp only [ho, if_true, List.mem_singleton]
  rfl

theorem mem_common {doc T : Forest XNode} {ids : List (PyStr × PyStr)} (h : TablesAre doc ids T) (s : OdtStyle) :
    s ∈ commonStyles doc ↔ s ∈ fixedStyles ∨ ∃ st ∈ entries "Style" T, s = commonStyle doc st := by
  obtain ⟨as, D, h1, bs, I, h2, h3⟩ := h.hwpdoc
  unfold commonStyles
  rw [forEach_entries, h1]
  simp only [List.flatMap_cons, List.flatMap_nil, List.append_nil]
  rw [forEach_entries, h2]
  simp only [List.flatMap_cons, List.flatMap_nil, List.append_nil]
  rw [forEach_entries, h3]
  simp only [List.flatMap_cons, List.flatMap_nil, List.append_nil, childrenNamed_eq, List.mem_append, List.mem_map]
  constructor
  · rintro (h | ⟨st, a, b⟩)
    · exact .inl h
    · exact .inr ⟨st, a, b.symm⟩
  · rintro (h | ⟨st, a, b⟩)
    · exact .inl h
    · exact .inr ⟨st, a, b.symm⟩

theorem fixed_names : ∀ s ∈ fixedStyles, s.family ≠ lit "text" ∧ (s.family = lit "paragraph" →
    s.name ∈ takenNames.map lit ∧ ¬ lit "Paragraph-" <+: s.name) := by decide +kernel

theorem text_ne_paragraph : lit "text" ≠ lit "paragraph" := by decide +kernel

/-- The style of a run of text is found by its name. -/
theorem find_text {doc T : Forest XNode} {ids : List (PyStr × PyStr)} (h : TablesAre doc ids T) (hP : ParagraphsNumbered doc)
    {p : XElem} (hp : p ∈ elementsNamed "Paragraph" doc) {i j : Nat} {l t : XElem} (hl : (entries "LineSeg" p.2)[i]? = some l)
    (ht : (entries "Text" l.2)[j]? = some t) (hm : textStyle doc p i j t ∈ automaticStyles doc) :
    styleFor (automaticStyles doc ++ commonStyles doc) "text" (ownTextName p.1 (i + 1) (j + 1)) = some (textStyle doc p i j t) := by
  refine styleFor_unique (s := textStyle doc p i j t) (List.mem_append.2 (.inl hm)) rfl ?_
  intro u hu hf hn
  rcases List.mem_append.1 hu with hu | hu
  · obtain ⟨q, hq, hu⟩ := mem_automatic hu
    rcases mem_paragraphStyles hu with rfl | ⟨i', l', j', t', hl', ht', rfl⟩
    · exact absurd hf.symm text_ne_paragraph
    · obtain ⟨rfl, a, b⟩ := ownTextName_inj hP hq hp hn
      obtain rfl : i' = i := by omega
      obtain rfl : j' = j := by omega
      rw [hl] at hl'
      obtain rfl := Option.some.inj hl'
      rw [ht] at ht'
      obtain rfl := Option.some.inj ht'
      rfl
  · rcases (mem_common h u).1 hu with hu | ⟨st, _, rfl⟩
    · exact absurd hf (fixed_names u hu).1
    · exact absurd hf.symm text_ne_paragraph

/-- The style of a paragraph is found by its name. -/
theorem find_paragraph {doc T : Forest XNode} {ids : List (PyStr × PyStr)} (h : TablesAre doc ids T) (hN : OfficeNames T) (hP : ParagraphsNumbered doc)
    {p : XElem} (hp : p ∈ elementsNamed "Paragraph" doc) (hm : paragraphStyle doc p ∈ automaticStyles doc) :
    styleFor (automaticStyles doc ++ commonStyles doc) "paragraph" (ownParagraphName p.1) = some (paragraphStyle doc p) := by
  refine styleFor_unique (s := paragraphStyle doc p) (List.mem_append.2 (.inl hm)) rfl ?_
  intro u hu hf hn
  have pre : lit "Paragraph-" <+: u.name := by rw [hn]; exact List.prefix_append _ _
  rcases List.mem_append.1 hu with hu | hu
  · obtain ⟨q, hq, hu⟩ := mem_automatic hu
    rcases mem_paragraphStyles hu with rfl | ⟨i', l', j', t', hl', ht', rfl⟩
    · rw [ownParagraphName_inj hP hq hp hn]
    · exact absurd hf text_ne_paragraph
  · rcases (mem_common h u).1 hu with hu | ⟨st, hst, rfl⟩
    · exact absurd pre ((fixed_names u hu).2 hf).2
    · refine absurd ?_ (hN.free st hst).2
      rw [← odtStyleName_one]; exact pre

/-- The style of the document is found by its name. -/
theorem find_style {doc T : Forest XNode} {ids : List (PyStr × PyStr)} (h : TablesAre doc ids T) (hN : OfficeNames T)
    {st : XElem} (hst : st ∈ entries "Style" T) :
    styleFor (automaticStyles doc ++ commonStyles doc) "paragraph" (officeName st) = some (commonStyle doc st) := by
  have nm : (commonStyle doc st).name = officeName st := odtStyleName_one st
  have key : styleFor (automaticStyles doc ++ commonStyles doc) "paragraph" (commonStyle doc st).name = some (commonStyle doc st) := by
    refine styleFor_unique (List.mem_append.2 (.inr ((mem_common h _).2 (.inr ⟨st, hst, rfl⟩)))) rfl ?_
    intro u hu hf hn
    rw [nm] at hn
    rcases List.mem_append.1 hu with hu | hu
    · obtain ⟨q, hq, hu⟩ := mem_automatic hu
      rcases mem_paragraphStyles hu with rfl | ⟨i', l', j', t', hl', ht', rfl⟩
      · refine absurd ?_ (hN.free st hst).2
        rw [← hn]; exact List.prefix_append _ _
      · exact absurd hf text_ne_paragraph
    · rcases (mem_common h u).1 hu with hu | ⟨st', hst', rfl⟩
      · exact absurd (by rw [← hn]; exact ((fixed_names u hu).2 hf).1) (hN.free st hst).1
      · have e : officeName st' = officeName st := by rw [← hn]; exact (odtStyleName_one st').symm
        rw [List.inj_on_of_nodup_map hN.distinct hst' hst e]
  rw [nm] at key
  exact key

/-! ### Runs of text -/

/-- Where a run of text comes from. -/
def FromLine (doc : Forest XNode) (r : OdtRun) : Prop :=
  r.para = [] ∨ ∃ p ∈ elementsNamed "Paragraph" doc, ∃ i l, (entries "LineSeg" p.2)[i]? = some l ∧
    ∃ t, (entries "Text" l.2)[r.before.count (lit "Text")]? = some t ∧ r = odtRun doc p.1 (i + 1) r.before t.1 (firstText t.2)

/-- What is known on the way. -/
def OnTheWay (doc : Forest XNode) (f : Forest XNode) (m : OdtWay) (para : List (PyStr × PyStr)) (line : Nat) (before : List PyStr) : Prop :=
  (m = .lines → ∃ p ∈ elementsNamed "Paragraph" doc, para = p.1 ∧ (entries "LineSeg" p.2).drop before.length = entries "LineSeg" f) ∧
  (m = .line → para = [] ∨ ∃ p ∈ elementsNamed "Paragraph" doc, para = p.1 ∧ ∃ i l, (entries "LineSeg" p.2)[i]? = some l ∧ line = i + 1 ∧
    (entries "Text" l.2).drop (before.count (lit "Text")) = entries "Text" f) ∧
  (m ≠ .lines → m ≠ .line → para = [])

theorem odtShape_ways {as : List (PyStr × PyStr)} {b : PyStr} {ways : List OdtWay} (h : odtShape as = .into b ways) : .lines ∉ ways ∧ .line ∉ ways := by
  unfold odtShape at h
  repeat' split at h
  all_goals (simp only [Act.into.injEq] at h; obtain ⟨_, rfl⟩ := h; simp)

theorem odtRule_lines {m : OdtWay} {n : PyStr} {as : List (PyStr × PyStr)} {b : PyStr} {ways : List OdtWay} (h : odtRule m n as = .into b ways)
    (hw : .lines ∈ ways) : n = lit "Paragraph" := by
  by_cases hn : n = lit "Paragraph"
  · exact hn
  · exfalso
    cases m <;> simp only [odtRule, hn, if_false, odtNote] at h <;> (repeat' split at h) <;>
      first
      | exact (odtShape_ways h).1 hw
      | (simp only [Act.into.injEq, reduceCtorEq] at h; obtain ⟨_, rfl⟩ := h; simp at hw)
      | (simp only [reduceCtorEq] at h)

theorem odtRule_line {m : OdtWay} {n : PyStr} {as : List (PyStr × PyStr)} {b : PyStr} {ways : List OdtWay} (h : odtRule m n as = .into b ways)
    (hw : .line ∈ ways) : n = lit "LineSeg" ∧ (m = .all ∨ m = .lines) := by
  by_cases hn : n = lit "LineSeg"
  · refine ⟨hn, ?_⟩
    cases m <;> simp only [odtRule, odtParagraph, odtNote] at h <;>
      first
      | exact .inl rfl
      | exact .inr rfl
      | (exfalso
         (repeat' split at h) <;>
          first
          | exact (odtShape_ways h).2 hw
          | (simp only [Act.into.injEq, reduceCtorEq] at h; obtain ⟨_, rfl⟩ := h; simp at hw)
          | (simp only [reduceCtorEq] at h))
  · exfalso
    cases m <;> simp only [odtRule, hn, if_false, odtNote, odtParagraph] at h <;> (repeat' split at h) <;>
      first
      | exact (odtShape_ways h).2 hw
      | (simp only [Act.into.injEq, reduceCtorEq] at h; obtain ⟨_, rfl⟩ := h; simp at hw)
      | (simp only [reduceCtorEq] at h)

theorem odtRule_text {m : OdtWay} {n : PyStr} {as : List (PyStr × PyStr)} (h : odtRule m n as = .run) : n = lit "Text" ∧ m ≠ .lines := by
  cases m <;> simp only [odtRule, odtParagraph, odtShape, odtNote] at h <;> (repeat' split at h) <;>
    first
    | (refine ⟨by assumption, by simp⟩)
    | (simp only [reduceCtorEq] at h)

theorem entries_elem (name : String) (n : PyStr) (as : List (PyStr × PyStr)) (cs sibs : Forest XNode) :
    entries name (.node (.elem n as) cs sibs) = (if n = lit name then [(as, cs)] else []) ++ entries name sibs := by rw [entries]

theorem drop_cons {α : Type} {xs ys : List α} {n : Nat} {a : α} (h : xs.drop n = a :: ys) : xs[n]? = some a ∧ xs.drop (n + 1) = ys := by
  have e : xs[n]? = some a := by
    have := congrArg (fun l => l[0]?) h
    simpa using this
  refine ⟨e, ?_⟩
  have := congrArg (List.drop 1) h
  rw [List.drop_drop] at this
  simpa [Nat.add_comm] using this

theorem walkSpans_from (doc : Forest XNode) (f : Forest XNode) : (∀ p ∈ elementsNamed "Paragraph" f, p ∈ elementsNamed "Paragraph" doc) →
    ∀ m para line before, OnTheWay doc f m para line before → ∀ r ∈ walkSpans doc f m para line before, FromLine doc r := by
  induction f with
  | nil => intro _ m para line before _ r hr; simp [walkSpans] at hr
  | node a cs sibs ih1 ih2 =>
    intro hp m para line before hw r hr
    cases a with
    | text t =>
      rw [walkSpans] at hr
      rw [elementsNamed] at hp
      refine ih2 hp m para line before ?_ r hr
      unfold OnTheWay at hw ⊢
      simpa only [entries] using hw
    | elem n as =>
      rw [elementsNamed] at hp
      have hp1 : ∀ p ∈ elementsNamed "Paragraph" cs, p ∈ elementsNamed "Paragraph" doc := fun p h => hp p (by simp [h])
      have hp2 : ∀ p ∈ elementsNamed "Paragraph" sibs, p ∈ elementsNamed "Paragraph" doc := fun p h => hp p (by simp [h])
      have hp0 : n = lit "Paragraph" → (as, cs) ∈ elementsNamed "Paragraph" doc := fun h => hp _ (by simp [h])
      obtain ⟨w1, w2, w3⟩ := hw
      rw [walkSpans] at hr
      rcases List.mem_append.1 hr with hr | hr
      · cases hR : odtRule m n as with
        | run =>
          rw [hR] at hr
          simp only [List.mem_singleton] at hr
          obtain ⟨hn, hm⟩ := odtRule_text hR
          by_cases hl : m = .line
          · rcases w2 hl with e | ⟨p, hpm, e, i, l, hl', hline, hd⟩
            · left; subst hr; exact e
            · right
              rw [entries_elem, if_pos hn] at hd
              obtain ⟨g, _⟩ := drop_cons (by simpa using hd)
              refine ⟨p, hpm, i, l, hl', (as, cs), ?_, ?_⟩
              · subst hr; exact g
              · subst hr; rw [e, hline]; rfl
          · left; subst hr; exact w3 hm hl
        | into b ways =>
          rw [hR] at hr
          obtain ⟨w, hwm, hr⟩ := List.mem_flatMap.1 hr
          refine ih1 hp1 w _ _ _ ⟨fun e => ?_, fun e => ?_, fun e1 e2 => ?_⟩ r hr
          · subst e
            have hn := odtRule_lines hR hwm
            exact ⟨(as, cs), hp0 hn, by rw [paragraphFor, if_pos ⟨hn, rfl⟩], rfl⟩
          · subst e
            obtain ⟨hn, hm⟩ := odtRule_line hR hwm
            have hpf : paragraphFor n as .line para = para := by
              rw [paragraphFor, if_neg (by simp), if_pos ⟨hn, rfl⟩]
            rw [hpf]
            rcases hm with hm | hm
            · left; exact w3 (by simp [hm]) (by simp [hm])
            · right
              obtain ⟨p, hpm, e, hd⟩ := w1 hm
              rw [entries_elem, if_pos hn] at hd
              obtain ⟨g, _⟩ := drop_cons (by simpa using hd)
              exact ⟨p, hpm, e, before.length, (as, cs), g, rfl, rfl⟩
          · rw [paragraphFor, if_neg (fun h => e1 h.2), if_neg (fun h => e2 h.2)]
      · refine ih2 hp2 m para line _ ⟨fun e => ?_, fun e => ?_, w3⟩ r hr
        · obtain ⟨p, hpm, ep, hd⟩ := w1 e
          refine ⟨p, hpm, ep, ?_⟩
          rw [entries_elem] at hd
          subst e
          by_cases hn : n = lit "LineSeg"
          · rw [if_pos hn] at hd
            obtain ⟨_, g⟩ := drop_cons (by simpa using hd)
            simp only [selectedIn, hn, beq_self_eq_true, if_true, List.length_append, List.length_singleton]
            exact g
          · rw [if_neg hn] at hd
            simp only [selectedIn, beq_eq_false_iff_ne.2 hn, Bool.false_eq_true, if_false]
            exact hd
        · rcases w2 e with ep | ⟨p, hpm, ep, i, l, hl, hline, hd⟩
          · left; exact ep
          · right
            refine ⟨p, hpm, ep, i, l, hl, hline, ?_⟩
            rw [entries_elem] at hd
            subst e
            by_cases hn : n = lit "Text"
            · rw [if_pos hn] at hd
              obtain ⟨_, g⟩ := drop_cons (by simpa using hd)
              rw [if_pos (by rw [hn]; decide +kernel), hn, List.count_append, List.count_singleton_self]
              exact g
            · rw [if_neg hn] at hd
              have c : (if selectedIn .line n then before ++ [n] else before).count (lit "Text") = before.count (lit "Text") := by
                split
                · rw [List.count_append, List.count_singleton, if_neg (by simpa using hn)]; rfl
                · rfl
              rw [c]; exact hd

theorem elementsNamed_entries (name other : String) (f : Forest XNode) : ∀ e ∈ entries other f, ∀ p ∈ elementsNamed name e.2, p ∈ elementsNamed name f := by
  induction f with
  | nil => intro e he; simp [entries] at he
  | node a cs sibs ih1 ih2 =>
    intro e he p hp
    cases a with
    | text t => rw [entries] at he; rw [elementsNamed]; exact ih2 e he p hp
    | elem n as =>
      rw [entries_elem] at he
      rw [elementsNamed]
      rcases List.mem_append.1 he with he | he
      · split at he
        · obtain rfl := List.mem_singleton.1 he; simp [hp]
        · simp at he
      · simp [ih2 e he p hp]

theorem run_from {doc : Forest XNode} {r : OdtRun} (h : r ∈ odtRuns doc) :
    FromLine doc r ∧ ∃ as D bs B, (as, D) ∈ entries "HwpDoc" doc ∧ (bs, B) ∈ entries "BodyText" D := by
  unfold odtRuns at h
  rw [forEach_entries] at h
  obtain ⟨e1, h1, h⟩ := List.mem_flatMap.1 h
  rw [forEach_entries] at h
  obtain ⟨e2, h2, h⟩ := List.mem_flatMap.1 h
  rw [forEach_entries] at h
  obtain ⟨e3, h3, h⟩ := List.mem_flatMap.1 h
  refine ⟨walkSpans_from doc e3.2 ?_ .all [] 0 [] ⟨by simp, by simp, fun _ _ => rfl⟩ r h, e1.1, e1.2, e2.1, e2.2, h1, h2⟩
  intro p hp
  exact elementsNamed_entries _ _ _ e1 h1 p (elementsNamed_entries _ _ _ e2 h2 p (elementsNamed_entries _ _ _ e3 h3 p hp))

/-! ### The values of properties -/

theorem common_props {doc T : Forest XNode} {ids : List (PyStr × PyStr)} (h : TablesAre doc ids T) {st d : XElem} {q : Nat}
    (hq : attrOf st.1 "charshape-id" = some (Spec.decimal q)) (hd : (entries "CharShape" T)[q]? = some d) :
    (commonStyle doc st).props = charProps doc d ∧ (commonStyle doc st).parent = none := by
  refine ⟨?_, rfl⟩
  unfold commonStyle
  simp only
  rw [attrValue_eq, hq, decimal_nat]
  simp only [Option.getD_some, xpathNumber_natStr, idEntries_eq h, hd, Option.toList_some, List.flatMap_cons, List.flatMap_nil, List.append_nil]

theorem style_value {doc T : Forest XNode} {ids : List (PyStr × PyStr)} (h : TablesAre doc ids T) (hN : OfficeNames T) {st d : XElem} {q : Nat}
    (hst : st ∈ entries "Style" T) (hq : attrOf st.1 "charshape-id" = some (Spec.decimal q)) (hd : (entries "CharShape" T)[q]? = some d)
    (prop : String) (n : Nat) : styleValue (automaticStyles doc ++ commonStyles doc) "paragraph" prop (n + 1) (officeName st) = lastSet (charProps doc d) prop := by
  rw [styleValue, find_style h hN hst]
  obtain ⟨a, b⟩ := common_props h hq hd
  simp only [Option.bind_some, a, b, Option.bind_none]
  cases lastSet (charProps doc d) prop <;> rfl

theorem styles_length {doc T : Forest XNode} {ids : List (PyStr × PyStr)} (h : TablesAre doc ids T) :
    ∃ n, (automaticStyles doc ++ commonStyles doc).length = n + 1 := by
  have hm : (⟨lit "paragraph", lit "Standard", none, [], []⟩ : OdtStyle) ∈ automaticStyles doc ++ commonStyles doc :=
    List.mem_append.2 (.inr ((mem_common h _).2 (.inl (by unfold fixedStyles; simp))))
  have := List.length_pos_of_mem hm
  exact ⟨_, (Nat.succ_pred_eq_of_pos this).symm⟩

theorem paragraph_value {doc T : Forest XNode} {ids : List (PyStr × PyStr)} (h : TablesAre doc ids T) (hN : OfficeNames T) (hP : ParagraphsNumbered doc)
    {st d : XElem} {q : Nat} {s : Nat} {p : XElem} (hp : p ∈ elementsNamed "Paragraph" doc) (hs : attrOf p.1 "style-id" = some (Spec.decimal s))
    (hst : (entries "Style" T)[s]? = some st) (hq : attrOf st.1 "charshape-id" = some (Spec.decimal q)) (hd : (entries "CharShape" T)[q]? = some d)
    (hB : ∃ as D bs B, (as, D) ∈ entries "HwpDoc" doc ∧ (bs, B) ∈ entries "BodyText" D)
    (prop : String) (i : Nat) (before : List PyStr) (as : List (PyStr × PyStr)) (text : PyStr) :
    styleValue (automaticStyles doc ++ commonStyles doc) "paragraph" prop ((automaticStyles doc ++ commonStyles doc).length + 1)
      (odtRun doc p.1 i before as text).paraStyle = lastSet (charProps doc d) prop := by
  obtain ⟨L, hL⟩ := styles_length h
  rw [hL]
  have hsn : xpathNumber (attrValue p.1 "style-id") = some s := by
    rw [attrValue_eq, hs, decimal_nat]; exact xpathNumber_natStr s
  have hstm : st ∈ entries "Style" T := List.mem_of_getElem? hst
  unfold odtRun
  simp only [hsn, nthInIds_eq h, hst, Option.toList_some]
  by_cases ho : ownParagraph [st] p.1 = true
  · rw [if_pos ho]
    have ho' : ownParagraph (nthOf doc "Style" (xpathNumber (attrValue p.1 "style-id"))) p.1 = true := by
      rw [hsn, nthOf_eq h _ (by simp), hst]; exact ho
    obtain ⟨a, D, b, B, h1, h2⟩ := hB
    have hm := automatic_mem h1 h2 hp (paragraphStyle_mem ho')
    rw [styleValue, find_paragraph h hN hP hp hm]
    simp only [paragraphStyle, Option.bind_some, lastSet, hsn, nthOf_eq h "Style" (by simp), hst, Option.toList_some]
    show (none : Option PyStr).orElse (fun _ => styleValue _ "paragraph" prop (L + 1) (odtStyleName [st])) = _
    rw [odtStyleName_one, style_value h hN hstm hq hd]
    rfl
  · rw [if_neg ho, odtStyleName_one]
    exact style_value h hN hstm hq hd prop (L + 1)

/-- A property of a run of text is that of its character shape, and if this has none, that of the character shape of the style of its paragraph. -/
theorem office_value {doc T : Forest XNode} {ids : List (PyStr × PyStr)} (h : TablesAre doc ids T) (hN : OfficeNames T) (hP : ParagraphsNumbered doc)
    {r : OdtRun} (hm : r ∈ odtRuns doc) {s k q : Nat} (hr : SpanOf r.para r.attrs s k) {st c d : XElem} (hst : (entries "Style" T)[s]? = some st)
    (hq : attrOf st.1 "charshape-id" = some (Spec.decimal q)) (hc : (entries "CharShape" T)[k]? = some c) (hd : (entries "CharShape" T)[q]? = some d)
    (ho : (∀ n ∈ r.before, n = lit "Text") ∨ q = k) (prop : String) :
    officeValue (automaticStyles doc) (commonStyles doc) prop r.paraStyle r.spanStyle =
      (lastSet (charProps doc c) prop).orElse fun _ => lastSet (charProps doc d) prop := by
  obtain ⟨hf, hB⟩ := run_from hm
  rcases hf with e | ⟨p, hp, i, l, hl, t, ht, e⟩
  · have := hr.style
    rw [e] at this
    simp [attrOf] at this
  have hs : attrOf p.1 "style-id" = some (Spec.decimal s) := by have := hr.style; rw [e] at this; exact this
  have hk : attrOf t.1 "charshape-id" = some (Spec.decimal k) := by have := hr.shape; rw [e] at this; exact this
  have pv := paragraph_value h hN hP hp hs hst hq hd hB prop (i + 1) r.before t.1 (firstText t.2)
  rw [← e] at pv
  have hsn : xpathNumber (attrValue p.1 "style-id") = some s := by
    rw [attrValue_eq, hs, decimal_nat]; exact xpathNumber_natStr s
  have hkn : xpathNumber (attrValue t.1 "charshape-id") = some k := by
    rw [attrValue_eq, hk, decimal_nat]; exact xpathNumber_natStr k
  have hqn : xpathNumber (firstAttr [st] "charshape-id") = some q := by
    have : firstAttr [st] "charshape-id" = natStr q := by
      unfold firstAttr attrNodes
      simp [attrNode_eq, hq, decimal_nat]
    rw [this]; exact xpathNumber_natStr q
  have own : ownText [st] t.1 = (q != k) := by
    unfold ownText; rw [hqn, hkn]; rfl
  have sp : r.spanStyle = if q = k then none else some (ownTextName p.1 (i + 1) (r.before.length + 1)) := by
    rw [e]
    unfold odtRun
    simp only [hsn, nthInIds_eq h, hst, Option.toList_some, own]
    by_cases hqk : q = k
    · simp [hqk]
    · simp [hqk]
  unfold officeValue
  simp only [pv]
  rw [sp]
  by_cases hqk : q = k
  · subst hqk
    rw [if_pos rfl]
    rw [hc] at hd
    obtain rfl := Option.some.inj hd
    cases lastSet (charProps doc c) prop <;> rfl
  · rw [if_neg hqk]
    have hb : ∀ n ∈ r.before, n = lit "Text" := ho.resolve_right hqk
    have cnt : r.before.count (lit "Text") = r.before.length := by
      rw [List.count_eq_length]; intro n hn; exact (hb n hn).symm
    rw [cnt] at ht
    have ho' : ownText (nthOf doc "Style" (xpathNumber (attrValue p.1 "style-id"))) t.1 = true := by
      rw [hsn, nthOf_eq h _ (by simp), hst, Option.toList_some, own]; simpa using hqk
    obtain ⟨a, D, b, B, h1, h2⟩ := hB
    have hmem := automatic_mem h1 h2 hp (textStyle_mem hl ht ho')
    simp only [Option.bind_some]
    rw [styleValue, find_text h hP hp hl ht hmem]
    have pr : (textStyle doc p i r.before.length t).props = charProps doc c := by
      unfold textStyle
      simp only [hkn, nthOf_eq h "CharShape" (by simp), hc, Option.toList_some, List.flatMap_cons, List.flatMap_nil, List.append_nil]
    simp only [Option.bind_some, pr]
    show ((lastSet (charProps doc c) prop).orElse fun _ => (none : Option PyStr).bind _).orElse _ = _
    cases lastSet (charProps doc c) prop <;> rfl

/-! ### The properties of a character shape -/

theorem fontProps_names (doc : Forest XNode) (c : XElem) (name lang : String) : ∀ d ∈ fontProps doc c name lang, d.1 = lit name := by
  intro d hd
  unfold fontProps at hd
  obtain ⟨f, _, hd⟩ := List.mem_flatMap.1 hd
  obtain ⟨x, _, rfl⟩ := List.mem_map.1 hd
  rfl

theorem lastSet_font (doc : Forest XNode) (c : XElem) (name lang prop : String) (hp : lit name ≠ lit prop) :
    lastSet (fontProps doc c name lang) prop = none :=
  lastSet_none fun d hd => by rw [fontProps_names doc c name lang d hd]; exact hp

/-- The properties for the sizes of letters. -/
def sizeNames : List String := ["fo:font-size", "style:font-size-asian", "style:font-size-complex"]

theorem sizeProps_names (c : XElem) : ∀ d ∈ sizeProps c, ∃ n ∈ sizeNames, d.1 = lit n := by
  intro d hd
  simp only [sizeProps, List.mem_cons, List.not_mem_nil, or_false] at hd
  rcases hd with rfl | rfl | rfl <;> exact ⟨_, by simp [sizeNames], rfl⟩

theorem lastSet_size (c : XElem) (prop : String) (hp : prop ∉ sizeNames) : lastSet (sizeProps c) prop = none :=
  lastSet_none fun d hd e => by
    obtain ⟨n, hn, h⟩ := sizeProps_names c d hd
    rw [h, lit_eq] at e
    exact hp (e ▸ hn)

theorem lastSet_if (b : Bool) (xs : List (PyStr × PyStr)) (prop : String) :
    lastSet (if b then xs else []) prop = if b then lastSet xs prop else none := by cases b <;> rfl

/-- The names of the properties in their order. -/
theorem char_value (doc : Forest XNode) (c : XElem) (prop : String) :
    lastSet (charProps doc c) prop =
      (if isOne c.1 "bold" then
        lastSet [(lit "fo:font-weight", lit "bold"), (lit "style:font-weight-asian", lit "bold"), (lit "style:font-weight-complex", lit "bold")] prop
        else none).orElse fun _ =>
      (lastSet [lineProp c.1 "style:text-underline-type" "underline", lineProp c.1 "style:text-overline-type" "overline",
        lineProp c.1 "style:text-line-through-type" "line_through"] prop).orElse fun _ =>
      (if isOne c.1 "italic" then
        lastSet [(lit "fo:font-style", lit "italic"), (lit "style:font-style-asian", lit "italic"), (lit "style:font-style-complex", lit "italic")] prop
        else none).orElse fun _ =>
      (lastSet (sizeProps c) prop).orElse fun _ =>
      (lastSet (fontProps doc c "style:font-name-asian" "ko") prop).orElse fun _ => lastSet (fontProps doc c "style:font-name" "en") prop := by
  unfold charProps
  simp only [lastSet_append, lastSet_if]

theorem walkSpans_texts (doc : Forest XNode) (f : Forest XNode) : ∀ m para line before,
    ((walkSpans doc f m para line before).map fun r => Piece.text r.text).Sublist (walk odtSheet f m) := by
  induction f with
  | nil => intro m para line before; simp [walkSpans, walk]
  | node a cs sibs ih1 ih2 =>
    intro m para line before
    cases a with
    | text t =>
      rw [walkSpans, walk]
      exact (ih2 _ _ _ _).trans (List.sublist_append_right _ _)
    | elem n as =>
      rw [walkSpans, walk, List.map_append]
      refine List.Sublist.append ?_ (ih2 _ _ _ _)
      show List.Sublist _ ((odtRule m n as).pieces _ _)
      cases odtRule m n as with
      | run => simp [Act.pieces, odtRun]
      | into b ways =>
        simp only [Act.pieces]
        refine List.Sublist.cons _ ?_
        induction ways with
        | nil => simp
        | cons w ws ih =>
          simp only [List.flatMap_cons, List.map_append]
          exact (ih1 _ _ _ _).append ih

theorem forEach_sublist {α β : Type} (name : PyStr) (g : Forest XNode → List α) (k : Forest XNode → List β) (φ : α → β) (f : Forest XNode)
    (h : ∀ cs, ((g cs).map φ).Sublist (k cs)) : ((forEach name g f).map φ).Sublist (forEach name k f) := by
  induction f with
  | nil => simp [forEach]
  | node a cs sibs ih1 ih2 =>
    cases a with
    | text t => rw [forEach, forEach]; exact ih2
    | elem n as =>
      rw [forEach, forEach, List.map_append]
      refine List.Sublist.append ?_ ih2
      split
      · exact h cs
      · simp

theorem odtRuns_texts (doc : Forest XNode) : ((odtRuns doc).map fun r => Piece.text r.text).Sublist (odtBody doc) :=
  forEach_sublist _ _ _ _ _ fun _ => forEach_sublist _ _ _ _ _ fun _ => forEach_sublist _ _ _ _ _ fun cs => walkSpans_texts doc cs _ _ _ _

end Hwp
