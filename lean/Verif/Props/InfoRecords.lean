/-
C106: what the records of a document say about its character shapes is what is shown, in a browser and in an office program.
-/
import Verif.Proofs.InfoDoc
import Verif.Props.Css
import Verif.Props.OdtStyles
set_option linter.unusedSimpArgs false
set_option linter.unusedVariables false
set_option autoImplicit false
set_option Elab.async false
namespace Hwp.Props
open Hwp Spec

/-- C106: paragraphs are numbered 0, 1, 2, … in the order of the XML file, over all sections, text boxes and cells. -/
theorem C106_paragraphs_numbered (env : XmlEnv) (rd : ModelReader Fields) (filetime : Nat → PyStr) (d : DocSource) (hrd : ReadsDecls d.version rd)
    (h : ProperDocument rd d) (hd : d.bindata = none) (evs : List XEv) (he : documentXml env rd filetime d = .ofList evs) :
    (elementsNamed "Paragraph" (xmlTree (joined evs))).map (fun p => attrOf p.1 "paragraph-id") =
      (List.range (elementsNamed "Paragraph" (xmlTree (joined evs))).length).map fun i => some (Spec.decimal (i : Nat)) := by
  obtain ⟨n, hn⟩ := doc_paragraphs env rd filetime d hrd h hd evs he
  have hl := hn.length_eq
  rw [List.length_range, List.length_map] at hl
  rw [← hl]
  have := forall₂_map (f := fun i : Nat => some (Spec.decimal (i : Nat))) (g := fun as => attrOf as "paragraph-id") (fun a b hab => hab.1) hn
  rw [List.map_map] at this
  exact this

section
variable (env : XmlEnv) (rd : ModelReader Fields) (filetime : Nat → PyStr) (d : DocSource) (hrd : ReadsDecls d.version rd)
    (h : ProperDocument rd d) (table : PModel Fields) (rows : Forest (Nat × PModel Fields)) (hI : InfoDocument rd d table rows)
    (evs : List XEv) (he : documentXml env rd filetime d = .ofList evs)
include hrd h hI he

/-! ### In a browser -/

/-- C106: a run of text is shown in the color of the record of its character shape.
Missing: styles without proper names (`C101_style_lost`); numbers of styles and shapes beyond the tables. -/
theorem C106_html_color_partial (hS : ProperStyles (tableRecords rows "Style")) (embed : Bool) (r : HtmlRun) (hm : r ∈ htmlRuns (xmlTree (joined evs)))
    (s k : Nat) (l : PyStr) (hr : RunOf r.para r.attrs s k l) (style shape : PModel Fields) (hs : (tableRecords rows "Style")[s]? = some style)
    (hk : (tableRecords rows "CharShape")[k]? = some shape) :
    ∃ color, intField "text_color" shape.content = some color ∧
      styledValue (pageRules embed (xmlTree (joined evs))) (lit "color") r.path = some (colorText color) := by
  obtain ⟨ids, T, hT, -, hE⟩ := info_entries env rd filetime d hrd h table rows hI evs he
  obtain ⟨st, a1, -⟩ := forall₂_get (hE "Style" (by decide)) s style hs
  obtain ⟨c, b1, b2⟩ := forall₂_get (hE "CharShape" (by decide)) k shape hk
  obtain ⟨n, c1, c2⟩ := entry_color hrd b2
  exact ⟨n, c1, C101_color_partial _ T ids hT (entries_names hrd (hE "Style" (by decide)) hS) embed r hm s k l hr st c a1 b1 _ c2 (by simp [colorText, lit])⟩

/-- C106: a run of text whose character shape is bold, by its record, is shown in bold; and one whose is not is not, if the records of the styles
with the class of an element around it have shapes that are not bold.
Missing: runs that are not bold in a paragraph whose style is bold (`C101_not_overridden`); and what is missing above. -/
theorem C106_html_bold_partial (hS : ProperStyles (tableRecords rows "Style")) (embed : Bool) (r : HtmlRun) (hm : r ∈ htmlRuns (xmlTree (joined evs)))
    (s k : Nat) (l : PyStr) (hr : RunOf r.para r.attrs s k l) (style shape : PModel Fields) (hs : (tableRecords rows "Style")[s]? = some style)
    (hk : (tableRecords rows "CharShape")[k]? = some shape) :
    (shapeBold shape = true → styledValue (pageRules embed (xmlTree (joined evs))) (lit "font-weight") r.path = some (lit "bold")) ∧
    (shapeBold shape = false → (∀ m ∈ tableRecords rows "Style", (∃ b ∈ r.path, styleRecordClass m ∈ classesOf b.2) →
        ∃ (q : Nat) (c : PModel Fields), styleShape m = some q ∧ (tableRecords rows "CharShape")[q]? = some c ∧ shapeBold c = false) →
      styledValue (pageRules embed (xmlTree (joined evs))) (lit "font-weight") r.path = none) := by
  obtain ⟨ids, T, hT, -, hE⟩ := info_entries env rd filetime d hrd h table rows hI evs he
  obtain ⟨st, a1, -⟩ := forall₂_get (hE "Style" (by decide)) s style hs
  obtain ⟨c, b1, b2⟩ := forall₂_get (hE "CharShape" (by decide)) k shape hk
  have key := C101_bold_partial _ T ids hT (entries_names hrd (hE "Style" (by decide)) hS) embed r hm s k l hr st c a1 b1
  refine ⟨fun hb => key.1 ((entry_bold hrd b2).1 hb), fun hb hst => key.2 ((entry_bold hrd b2).2 hb) ?_⟩
  intro x hx hb'
  obtain ⟨m, m1, m2⟩ := forall₂_mem (hE "Style" (by decide)) x hx
  rw [entry_class hrd m2] at hb'
  obtain ⟨q, c', q1, q2, q3⟩ := hst m m1 hb'
  obtain ⟨q', p1, p2⟩ := entry_shape hrd m2
  obtain rfl : q' = q := by rw [p1] at q1; exact Int.ofNat.inj (Option.some.inj q1)
  refine ⟨q', p2, fun y hy => ?_⟩
  obtain ⟨y', y1, y2⟩ := forall₂_get (hE "CharShape" (by decide)) q' c' q2
  rw [hy] at y1
  obtain rfl := Option.some.inj y1
  exact (entry_bold hrd y2).2 q3

/-- C106: the same for italic. -/
theorem C106_html_italic_partial (hS : ProperStyles (tableRecords rows "Style")) (embed : Bool) (r : HtmlRun) (hm : r ∈ htmlRuns (xmlTree (joined evs)))
    (s k : Nat) (l : PyStr) (hr : RunOf r.para r.attrs s k l) (style shape : PModel Fields) (hs : (tableRecords rows "Style")[s]? = some style)
    (hk : (tableRecords rows "CharShape")[k]? = some shape) :
    (shapeItalic shape = true → styledValue (pageRules embed (xmlTree (joined evs))) (lit "font-style") r.path = some (lit "italic")) ∧
    (shapeItalic shape = false → (∀ m ∈ tableRecords rows "Style", (∃ b ∈ r.path, styleRecordClass m ∈ classesOf b.2) →
        ∃ (q : Nat) (c : PModel Fields), styleShape m = some q ∧ (tableRecords rows "CharShape")[q]? = some c ∧ shapeItalic c = false) →
      styledValue (pageRules embed (xmlTree (joined evs))) (lit "font-style") r.path = none) := by
  obtain ⟨ids, T, hT, -, hE⟩ := info_entries env rd filetime d hrd h table rows hI evs he
  obtain ⟨st, a1, -⟩ := forall₂_get (hE "Style" (by decide)) s style hs
  obtain ⟨c, b1, b2⟩ := forall₂_get (hE "CharShape" (by decide)) k shape hk
  have key := C101_italic_partial _ T ids hT (entries_names hrd (hE "Style" (by decide)) hS) embed r hm s k l hr st c a1 b1
  refine ⟨fun hb => key.1 ((entry_italic hrd b2).1 hb), fun hb hst => key.2 ((entry_italic hrd b2).2 hb) ?_⟩
  intro x hx hb'
  obtain ⟨m, m1, m2⟩ := forall₂_mem (hE "Style" (by decide)) x hx
  rw [entry_class hrd m2] at hb'
  obtain ⟨q, c', q1, q2, q3⟩ := hst m m1 hb'
  obtain ⟨q', p1, p2⟩ := entry_shape hrd m2
  obtain rfl : q' = q := by rw [p1] at q1; exact Int.ofNat.inj (Option.some.inj q1)
  refine ⟨q', p2, fun y hy => ?_⟩
  obtain ⟨y', y1, y2⟩ := forall₂_get (hE "CharShape" (by decide)) q' c' q2
  rw [hy] at y1
  obtain rfl := Option.some.inj y1
  exact (entry_italic hrd y2).2 q3

/-- C106: a run of text is shown in the face that its character shape has for its language: the record of the shape has a number for each language,
which counts the records of the faces of that language, and the faces of the languages come one after the other, as many as the table says.
Missing: numbers beyond the faces of the language; and what is missing above. -/
theorem C106_html_font_partial (hS : ProperStyles (tableRecords rows "Style")) (embed : Bool) (r : HtmlRun) (hm : r ∈ htmlRuns (xmlTree (joined evs)))
    (s k : Nat) (l : String) (hl : l ∈ languages) (hr : RunOf r.para r.attrs s k (lit l)) (style shape face : PModel Fields)
    (hs : (tableRecords rows "Style")[s]? = some style) (hk : (tableRecords rows "CharShape")[k]? = some shape) (i : Nat) (hi : shapeFace shape l = some i)
    (hf : (facesFor table l languages (tableRecords rows "FaceName"))[i]? = some face) :
    ∃ name more, strField "name" face.content = some name ∧ (more = [] ∨ lit ", " <+: more) ∧
      styledValue (pageRules embed (xmlTree (joined evs))) (lit "font-family") r.path = some (lit "\"" ++ name.filter (· ≠ 0) ++ lit "\"" ++ more) := by
  obtain ⟨ids, T, hT, hId, hE⟩ := info_entries env rd filetime d hrd h table rows hI evs he
  obtain ⟨st, a1, -⟩ := forall₂_get (hE "Style" (by decide)) s style hs
  obtain ⟨c, b1, b2⟩ := forall₂_get (hE "CharShape" (by decide)) k shape hk
  obtain ⟨fs, fk, f1, f2⟩ := entry_faces hrd b2
  obtain ⟨i', g1, g2⟩ := f2 l hl
  obtain rfl : i' = i := by rw [g1] at hi; exact Int.ofNat.inj (Option.some.inj hi)
  obtain ⟨x, x1, x2⟩ := forall₂_get (faces_entries table l languages _ _ (hE "FaceName" (by decide))) i' face hf
  obtain ⟨name, n1, n2⟩ := entry_face hrd x2
  obtain ⟨more, h1, h2⟩ := C101_font_partial _ T ids hT (entries_names hrd (hE "Style" (by decide)) hS) embed r hm s k l hl hr st c a1 b1 (faceCount table)
    (entry_counts hrd hId) fs fk f1 i' g2 x x1 _ n2
  exact ⟨name, more, n1, h1, h2⟩

/-! ### In an office program -/

/-- C106: text is underlined, struck through or overlined, once or twice, if the record of its character shape says so.
Missing: text after a tab, a picture or another control whose shape is not the one of the style (`C103_after_tab`); styles of lines beyond the
eleven that have names; names of styles that are not proper (`C103_same_name`). -/
theorem C106_odt_lines_partial (hS : OfficeStyles (tableRecords rows "Style")) (r : OdtRun) (hm : r ∈ odtRuns (xmlTree (joined evs)))
    (s k q : Nat) (hr : SpanOf r.para r.attrs s k) (style shape base : PModel Fields) (hs : (tableRecords rows "Style")[s]? = some style)
    (hk : (tableRecords rows "CharShape")[k]? = some shape) (hq : styleShape style = some q) (hb : (tableRecords rows "CharShape")[q]? = some base)
    (ho : (∀ n ∈ r.before, n = lit "Text") ∨ q = k) (line : Nat) (prop : String) (hp : (line, prop) ∈ lineProps) (j : Nat) (hj : shapeLineStyle shape = some j)
    (hj' : j < 11) :
    officeValue (automaticStyles (xmlTree (joined evs))) (commonStyles (xmlTree (joined evs))) prop r.paraStyle r.spanStyle =
      some (if shapeLine shape = some line then if j < 7 then lit "single" else lit "double" else lit "none") := by
  obtain ⟨ids, T, hT, -, hE⟩ := info_entries env rd filetime d hrd h table rows hI evs he
  have hN := (doc_numbered env rd filetime d hrd h hI.separate evs he).1
  obtain ⟨st, a1, a2⟩ := forall₂_get (hE "Style" (by decide)) s style hs
  obtain ⟨c, b1, b2⟩ := forall₂_get (hE "CharShape" (by decide)) k shape hk
  obtain ⟨dd, d1, d2⟩ := forall₂_get (hE "CharShape" (by decide)) q base hb
  obtain ⟨q', p1, p2⟩ := entry_shape hrd a2
  obtain rfl : q' = q := by rw [p1] at hq; exact Int.ofNat.inj (Option.some.inj hq)
  obtain ⟨k0, j0, l1, l2, l3, l4, l5⟩ := entry_line hrd b2
  obtain rfl : j0 = j := by rw [l3] at hj; exact Option.some.inj hj
  have hlen : (singleLines ++ doubleLines).length = 11 := by decide
  have e := List.getElem?_eq_getElem (by rw [hlen]; exact hj' : j0 < (singleLines ++ doubleLines).length)
  have l6 := l5 _ e
  have key : ∀ kind, (kind, prop) ∈ lineKinds → lineNames[line]? = some kind → line < 4 →
      officeValue (automaticStyles (xmlTree (joined evs))) (commonStyles (xmlTree (joined evs))) prop r.paraStyle r.spanStyle =
        some (if shapeLine shape = some line then if j0 < 7 then lit "single" else lit "double" else lit "none") := fun kind hkind hn hl4 => by
    have key := C103_lines_partial _ T ids hT (entries_office hrd (hE "Style" (by decide)) hS) hN r hm s k q' hr st c dd a1 p2 b1 d1 ho kind prop hkind
    by_cases hl : k0 = line
    · subst hl
      rw [hn] at l4
      rw [l2, if_pos rfl]
      by_cases h7 : j0 < 7
      · rw [if_pos h7]
        refine key.1 ⟨l4, _, ?_, l6⟩
        have : ∀ j < 7, ∀ x ∈ (singleLines ++ doubleLines)[j]?, x ∈ singleLines := by decide +kernel
        exact this j0 h7 _ e
      · rw [if_neg h7]
        refine key.2.1 ⟨l4, _, ?_, l6⟩
        have : ∀ j < 11, ¬ j < 7 → ∀ x ∈ (singleLines ++ doubleLines)[j]?, x ∈ doubleLines := by decide +kernel
        exact this j0 hj' h7 _ e
    · rw [l2, if_neg (by simpa using hl)]
      refine key.2.2 ⟨lit (lineNames[k0]'(by simpa [lineNames] using l1)), ?_, ?_⟩
      · have : ∀ a < 4, ∀ b < 4, a ≠ b → (lineNames[a]?).map lit ≠ (lineNames[b]?).map lit := by decide +kernel
        intro e
        refine this k0 l1 line hl4 hl ?_
        rw [hn, Option.map_some, ← e, List.getElem?_eq_getElem (by simpa [lineNames] using l1)]; rfl
      · rw [l4, List.getElem?_eq_getElem (by simpa [lineNames] using l1)]; rfl
  simp only [lineProps, List.mem_cons, Prod.mk.injEq, List.not_mem_nil, or_false] at hp
  rcases hp with ⟨rfl, rfl⟩ | ⟨rfl, rfl⟩ | ⟨rfl, rfl⟩
  · exact key "underline" (by decide) (by decide) (by decide)
  · exact key "line_through" (by decide) (by decide) (by decide)
  · exact key "overline" (by decide) (by decide) (by decide)

/-- C106: text is bold if the record of its character shape says so, and not if neither it nor that of the style of its paragraph does.
Missing: text that is not bold in a paragraph whose style is bold (`C103_not_overridden`); and what is missing above. -/
theorem C106_odt_bold_partial (hS : OfficeStyles (tableRecords rows "Style")) (r : OdtRun) (hm : r ∈ odtRuns (xmlTree (joined evs)))
    (s k q : Nat) (hr : SpanOf r.para r.attrs s k) (style shape base : PModel Fields) (hs : (tableRecords rows "Style")[s]? = some style)
    (hk : (tableRecords rows "CharShape")[k]? = some shape) (hq : styleShape style = some q) (hb : (tableRecords rows "CharShape")[q]? = some base)
    (ho : (∀ n ∈ r.before, n = lit "Text") ∨ q = k) (prop : String) (hp : prop ∈ weightProps) :
    (shapeBold shape = true →
      officeValue (automaticStyles (xmlTree (joined evs))) (commonStyles (xmlTree (joined evs))) prop r.paraStyle r.spanStyle = some (lit "bold")) ∧
    (shapeBold shape = false → shapeBold base = false →
      officeValue (automaticStyles (xmlTree (joined evs))) (commonStyles (xmlTree (joined evs))) prop r.paraStyle r.spanStyle = none) := by
  obtain ⟨ids, T, hT, -, hE⟩ := info_entries env rd filetime d hrd h table rows hI evs he
  have hN := (doc_numbered env rd filetime d hrd h hI.separate evs he).1
  obtain ⟨st, a1, a2⟩ := forall₂_get (hE "Style" (by decide)) s style hs
  obtain ⟨c, b1, b2⟩ := forall₂_get (hE "CharShape" (by decide)) k shape hk
  obtain ⟨dd, d1, d2⟩ := forall₂_get (hE "CharShape" (by decide)) q base hb
  obtain ⟨q', p1, p2⟩ := entry_shape hrd a2
  obtain rfl : q' = q := by rw [p1] at hq; exact Int.ofNat.inj (Option.some.inj hq)
  have key := C103_bold_partial _ T ids hT (entries_office hrd (hE "Style" (by decide)) hS) hN r hm s k q' hr st c dd a1 p2 b1 d1 ho prop hp
  exact ⟨fun g => key.1 ((entry_bold hrd b2).1 g), fun g g' => key.2 ((entry_bold hrd b2).2 g) ((entry_bold hrd d2).2 g')⟩

/-- C106: the same for italic. -/
theorem C106_odt_italic_partial (hS : OfficeStyles (tableRecords rows "Style")) (r : OdtRun) (hm : r ∈ odtRuns (xmlTree (joined evs)))
    (s k q : Nat) (hr : SpanOf r.para r.attrs s k) (style shape base : PModel Fields) (hs : (tableRecords rows "Style")[s]? = some style)
    (hk : (tableRecords rows "CharShape")[k]? = some shape) (hq : styleShape style = some q) (hb : (tableRecords rows "CharShape")[q]? = some base)
    (ho : (∀ n ∈ r.before, n = lit "Text") ∨ q = k) (prop : String) (hp : prop ∈ slantProps) :
    (shapeItalic shape = true →
      officeValue (automaticStyles (xmlTree (joined evs))) (commonStyles (xmlTree (joined evs))) prop r.paraStyle r.spanStyle = some (lit "italic")) ∧
    (shapeItalic shape = false → shapeItalic base = false →
      officeValue (automaticStyles (xmlTree (joined evs))) (commonStyles (xmlTree (joined evs))) prop r.paraStyle r.spanStyle = none) := by
  obtain ⟨ids, T, hT, -, hE⟩ := info_entries env rd filetime d hrd h table rows hI evs he
  have hN := (doc_numbered env rd filetime d hrd h hI.separate evs he).1
  obtain ⟨st, a1, a2⟩ := forall₂_get (hE "Style" (by decide)) s style hs
  obtain ⟨c, b1, b2⟩ := forall₂_get (hE "CharShape" (by decide)) k shape hk
  obtain ⟨dd, d1, d2⟩ := forall₂_get (hE "CharShape" (by decide)) q base hb
  obtain ⟨q', p1, p2⟩ := entry_shape hrd a2
  obtain rfl : q' = q := by rw [p1] at hq; exact Int.ofNat.inj (Option.some.inj hq)
  have key := C103_italic_partial _ T ids hT (entries_office hrd (hE "Style" (by decide)) hS) hN r hm s k q' hr st c dd a1 p2 b1 d1 ho prop hp
  exact ⟨fun g => key.1 ((entry_italic hrd b2).1 g), fun g g' => key.2 ((entry_italic hrd b2).2 g) ((entry_italic hrd d2).2 g')⟩

/-- C106: text is shown, in Asian scripts, in the face that its character shape has for Korean.
Missing: the face for English (`C103_western_font`); and what is missing above. -/
theorem C106_odt_asian_font_partial (hS : OfficeStyles (tableRecords rows "Style")) (r : OdtRun) (hm : r ∈ odtRuns (xmlTree (joined evs)))
    (s k q : Nat) (hr : SpanOf r.para r.attrs s k) (style shape base face : PModel Fields) (hs : (tableRecords rows "Style")[s]? = some style)
    (hk : (tableRecords rows "CharShape")[k]? = some shape) (hq : styleShape style = some q) (hb : (tableRecords rows "CharShape")[q]? = some base)
    (ho : (∀ n ∈ r.before, n = lit "Text") ∨ q = k) (i : Nat) (hi : shapeFace shape "ko" = some i)
    (hf : (facesFor table "ko" languages (tableRecords rows "FaceName"))[i]? = some face) :
    ∃ name, strField "name" face.content = some name ∧
      officeValue (automaticStyles (xmlTree (joined evs))) (commonStyles (xmlTree (joined evs))) "style:font-name-asian" r.paraStyle r.spanStyle =
        some (name.filter (· ≠ 0)) := by
  obtain ⟨ids, T, hT, -, hE⟩ := info_entries env rd filetime d hrd h table rows hI evs he
  have hN := (doc_numbered env rd filetime d hrd h hI.separate evs he).1
  obtain ⟨st, a1, a2⟩ := forall₂_get (hE "Style" (by decide)) s style hs
  obtain ⟨c, b1, b2⟩ := forall₂_get (hE "CharShape" (by decide)) k shape hk
  obtain ⟨dd, d1, d2⟩ := forall₂_get (hE "CharShape" (by decide)) q base hb
  obtain ⟨q', p1, p2⟩ := entry_shape hrd a2
  obtain rfl : q' = q := by rw [p1] at hq; exact Int.ofNat.inj (Option.some.inj hq)
  obtain ⟨fs, fk, f1, f2⟩ := entry_faces hrd b2
  obtain ⟨i', g1, g2⟩ := f2 "ko" (by decide)
  obtain rfl : i' = i := by rw [g1] at hi; exact Int.ofNat.inj (Option.some.inj hi)
  obtain ⟨x, x1, x2⟩ := forall₂_get (faces_entries table "ko" languages _ _ (hE "FaceName" (by decide))) i' face hf
  obtain ⟨name, n1, n2⟩ := entry_face hrd x2
  exact ⟨name, n1, C103_asian_font_partial _ T ids hT (entries_office hrd (hE "Style" (by decide)) hS) hN r hm s k q' hr st c dd a1 p2 b1 d1 ho (faceCount table) fs fk f1 i' g2
    x x1 _ n2⟩

end

/-! ### An example -/

/-- Records side by side, with their numbers. -/
def sideBySide : Nat → List (PModel Fields) → Forest (Nat × PModel Fields)
  | _, [] => .nil
  | n, m :: ms => .node (n, m) .nil (sideBySide (n + 1) ms)

theorem sideBySide_depths (d : Nat) : ∀ (ms : List (PModel Fields)) (n : Nat), ms.map (fun m => m.record.level) = List.replicate ms.length d →
    depthsOf d (sideBySide n ms) = ms.mapIdx fun i m => (m.record.level, n + i, m)
  | [], n, h => rfl
  | m :: ms, n, h => by
    simp only [List.map_cons, List.length_cons, List.replicate_succ, List.cons.injEq] at h
    simp only [sideBySide, depthsOf, List.nil_append, List.mapIdx_cons, Nat.add_zero, h.1, sideBySide_depths d ms (n + 1) h.2]
    congr 2
    funext i m'
    rw [show n + 1 + i = n + (i + 1) from by omega]

theorem sideBySide_of (t : String) : ∀ (ms : List (PModel Fields)) (n : Nat), recordsOf t (sideBySide n ms) = ms.filter (fun m => m.type = t) ∧
    (recordsAt t (sideBySide n ms)).map (·.1) = ms.filter (fun m => m.type = t)
  | [], n => ⟨rfl, rfl⟩
  | m :: ms, n => by
    obtain ⟨h1, h2⟩ := sideBySide_of t ms (n + 1)
    simp only [sideBySide, recordsOf, recordsAt, List.append_nil, List.map_append, h1, h2, List.filter_cons]
    by_cases e : m.type = t <;> simp [e]

/-- `DocInfo` with a record at the top, the table, and records below the table. -/
theorem info_of {rd : ModelReader Fields} {s : Bytes} (h1 : (readRecords s).err = none) (h2 : ((readRecords s).out[0]?).map Record.level = some 0)
    (h3 : (streamModels rd s).err = none) (first : String) (n : Nat) (types : List String)
    (hl : (streamModels rd s).out.map (fun m => m.record.level) = 0 :: 0 :: List.replicate n 1)
    (ht : (streamModels rd s).out.map (·.type) = first :: "IdMappings" :: types) (hf : first ∉ "IdMappings" :: tableTypes) (hn : "IdMappings" ∉ types) :
    ∃ docinfo table, (streamModels rd s).out[1]? = some table ∧ StreamTree rd s docinfo ∧
      InfoTable docinfo table (sideBySide 2 ((streamModels rd s).out.drop 2)) := by
  generalize ho : (streamModels rd s).out = out at hl ht ⊢
  match out, ho, hl, ht with
  | [], _, hl, _ => cases hl
  | [_], _, hl, _ => simp at hl
  | a :: b :: ms, ho, hl, ht =>
    simp only [List.map_cons, List.cons.injEq] at hl ht
    obtain ⟨la, lb, lm⟩ := hl
    obtain ⟨ta, tb, tm⟩ := ht
    have hlen : n = ms.length := by have := congrArg List.length lm; simpa using this.symm
    have hms : ms.filter (fun m => m.type = "IdMappings") = [] := by
      simp only [List.filter_eq_nil_iff, decide_eq_true_eq]
      intro m hm e
      exact hn (by rw [← tm, ← e]; exact List.mem_map_of_mem hm)
    refine ⟨.node (0, a) .nil (.node (1, b) (sideBySide 2 ms) .nil), b, rfl, ⟨h1, ?_, h3, ?_⟩, ?_⟩
    · intro r hr; rw [hr] at h2; simpa using h2
    · rw [startDepths_eventsOf, ho]
      simp only [depthsOf, List.nil_append, List.append_nil, List.mapIdx_cons, la, lb]
      rw [sideBySide_depths 1 ms 2 (by rw [lm, hlen])]
      congr 3
      funext i m
      rw [show 2 + i = i + 1 + 1 from by omega]
    · have hI : first ≠ "IdMappings" := fun e => hf (by simp [e])
      refine ⟨?_, ?_, ?_⟩
      · simp [recordsAt, ta, tb, hI]
      · simp [recordsOf, ta, tb, hI, (sideBySide_of "IdMappings" ms 2).1, hms]
      · intro t htt
        have n1 : first ≠ t := fun e => hf (by rw [e]; exact List.mem_cons_of_mem _ htt)
        have n2 : "IdMappings" ≠ t := by
          rintro rfl; revert htt; decide
        simp [recordsOf, ta, tb, n1, n2, (sideBySide_of t ms 2).1, (sideBySide_of t ms 2).2]

/-- The document of the tables in `Props.Css`: "A" with a bold red character shape, "B" with a plain blue one. -/
def styledDoc : DocSource := ⟨[5, 0, 1, 7], sampleSummaryObj, styleInfo ["Body Text"], [(0, styledBody)], none⟩

/-- The records of its `DocInfo`. -/
def styledRecords : List (PModel Fields) := (streamModels (directReader [5, 0, 1, 7]) (styleInfo ["Body Text"])).out
def styledRows : Forest (Nat × PModel Fields) := sideBySide 2 (styledRecords.drop 2)

def styledItems : Forest Item :=
  .node (.paragraph true 0) (.node (.paraText [⟨0, 8, .ctrl (.other 2 [115, 101, 99, 100] [0, 0, 0, 0, 0, 0, 0, 0])⟩,
    ⟨8, 10, .text [65, 66]⟩, ⟨10, 11, .ctrl (.plain 13)⟩] 1) .nil (.node (.paraCharShape [(0, 0), (9, 1)] 2) .nil
    (.node (.sectionDef none 3) .nil .nil))) .nil

theorem styled_section : SectionWith styledBody styledItems :=
  ⟨by decide +kernel, by decide +kernel, by decide +kernel, by decide +kernel, by decide +kernel, by unfold BinDataOk; decide +kernel⟩

theorem styled_info : ∃ docinfo table, styledRecords[1]? = some table ∧ StreamTree (directReader [5, 0, 1, 7]) (styleInfo ["Body Text"]) docinfo ∧
    InfoTable docinfo table styledRows :=
  info_of (by decide +kernel) (by decide +kernel) (by decide +kernel) "DocumentProperties" 6 ["FaceName", "FaceName", "CharShape", "CharShape", "ParaShape", "Style"]
    (by decide +kernel) (by decide +kernel) (by decide +kernel) (by decide +kernel)

theorem styled_proper : ProperDocument (directReader [5, 0, 1, 7]) styledDoc where
  version := rfl
  summary := sample_proper.summary
  docinfo := by obtain ⟨f, t, -, h, -⟩ := styled_info; exact ⟨f, h⟩
  docinfoTypes := by decide +kernel
  docinfoData := by unfold BinDataOk; decide +kernel
  embedded := by intro bd h; cases h
  sections := by
    intro s hs
    obtain rfl : s = (0, styledBody) := by simpa [styledDoc] using hs
    obtain ⟨f, hf⟩ := streamTree_exists (directReader [5, 0, 1, 7]) styledBody styled_section.records (by
      intro r hr
      have := styled_section.level
      rw [hr] at this
      simpa using this) styled_section.models
    refine ⟨f, hf, ?_⟩
    have : f.map (fun p => itemOf p.1 p.2) = styledItems := by
      apply depthsOf_inj _ _ 0
      rw [depthsOf_map, streamTree_depths hf, ← styled_section.same]
      exact List.ext_getElem (by simp) (by simp)
    rw [this]
    exact styled_section.proper
  sectionData := by
    intro s hs
    obtain rfl : s = (0, styledBody) := by simpa [styledDoc] using hs
    exact styled_section.data

theorem styled_document : ∃ table, styledRecords[1]? = some table ∧ InfoDocument (directReader [5, 0, 1, 7]) styledDoc table styledRows := by
  obtain ⟨f, t, h1, h2, h3⟩ := styled_info
  exact ⟨t, h1, ⟨f, h2, h3⟩, by decide +kernel, rfl⟩

theorem styled_styles : ProperStyles (tableRecords styledRows "Style") ∧ OfficeStyles (tableRecords styledRows "Style") :=
  ⟨⟨by decide +kernel, by decide +kernel, by decide +kernel⟩, ⟨by decide +kernel, by decide +kernel⟩⟩

theorem styled_events : ∃ evs, documentXml sampleEnv (directReader [5, 0, 1, 7]) (fun _ => []) styledDoc = .ofList evs ∧ xmlTree (joined evs) = styledTree ["Body Text"] := by
  obtain ⟨es, X, -, h2, -⟩ := document_shown sampleEnv (directReader [5, 0, 1, 7]) (fun _ => []) styledDoc ((C68_reader _ _).2 rfl) styled_proper
  refine ⟨X, h2, ?_⟩
  show _ = xmlTree (joined (documentXml sampleEnv (directReader [5, 0, 1, 7]) (fun _ => []) styledDoc).out)
  rw [h2]; rfl

theorem styled_record (t : String) (i : Nat) (h : i < (tableRecords styledRows t).length) : ∃ m, (tableRecords styledRows t)[i]? = some m :=
  ⟨_, List.getElem?_eq_getElem h⟩

/-- The runs of "B" have the character shape 1, in a paragraph with the style 0. -/
theorem blue_attrs : ((htmlRuns (styledTree ["Body Text"]))[1]?).map (fun r => (r.text, [attrOf r.para "style-id", attrOf r.para "parashape-id", attrOf r.attrs "charshape-id",
    attrOf r.attrs "lang"])) = some (lit "B", [some (lit "0"), some (lit "0"), some (lit "1"), some (lit "en")]) := by decide +kernel

theorem blue_run : ∃ r ∈ htmlRuns (styledTree ["Body Text"]), r.text = lit "B" ∧ RunOf r.para r.attrs 0 1 (lit "en") := by
  have h := blue_attrs
  cases e : (htmlRuns (styledTree ["Body Text"]))[1]? with
  | none => rw [e] at h; cases h
  | some r =>
    rw [e, Option.map_some, Option.some.injEq, Prod.mk.injEq] at h
    simp only [List.cons.injEq, and_true] at h
    exact ⟨r, List.mem_of_getElem? e, h.1, ⟨h.2.1, ⟨0, h.2.2.1⟩, h.2.2.2.1, h.2.2.2.2, by decide +kernel⟩⟩

theorem blue_span_attrs : ((odtRuns (styledTree ["Body Text"]))[1]?).map (fun r => ((r.text, attrOf r.para "style-id", attrOf r.attrs "charshape-id"), r.before)) =
    some ((lit "B", some (lit "0"), some (lit "1")), [lit "Text"]) := by decide +kernel

theorem blue_span : ∃ r ∈ odtRuns (styledTree ["Body Text"]), r.text = lit "B" ∧ SpanOf r.para r.attrs 0 1 ∧ ∀ n ∈ r.before, n = lit "Text" := by
  have h := blue_span_attrs
  cases e : (odtRuns (styledTree ["Body Text"]))[1]? with
  | none => rw [e] at h; cases h
  | some r =>
    rw [e, Option.map_some, Option.some.injEq, Prod.mk.injEq, Prod.mk.injEq, Prod.mk.injEq] at h
    exact ⟨r, List.mem_of_getElem? e, h.1.1, ⟨h.1.2.1, h.1.2.2⟩, by rw [h.2]; simp⟩

/-- The theorems apply: "B" is blue in a browser. -/
example : ∃ r ∈ htmlRuns (styledTree ["Body Text"]), r.text = lit "B" ∧ styledValue (pageRules true (styledTree ["Body Text"])) (lit "color") r.path = some (lit "#0000ff") := by
  obtain ⟨r, r1, r2, r3⟩ := blue_run
  refine ⟨r, r1, r2, ?_⟩
  obtain ⟨evs, he, hx⟩ := styled_events
  obtain ⟨table, ht, hI⟩ := styled_document
  obtain ⟨st, hs⟩ := styled_record "Style" 0 (by decide +kernel)
  obtain ⟨c, hc⟩ := styled_record "CharShape" 1 (by decide +kernel)
  obtain ⟨n, h1, h2⟩ := C106_html_color_partial sampleEnv _ (fun _ => []) styledDoc ((C68_reader _ _).2 rfl) styled_proper table styledRows hI evs he styled_styles.1 true
    r (by rw [hx]; exact r1) 0 1 (lit "en") r3 st c hs hc
  rw [hx] at h2
  have : ((tableRecords styledRows "CharShape")[1]?).map (fun m => (intField "text_color" m.content).map colorText) = some (some (lit "#0000ff")) := by decide +kernel
  rw [hc, Option.map_some, h1, Option.map_some, Option.some.injEq, Option.some.injEq] at this
  rw [h2, this]

/-- And is in the first face for English, the second of the table. -/
example : ∃ r ∈ htmlRuns (styledTree ["Body Text"]), r.text = lit "B" ∧
    ∃ more, styledValue (pageRules true (styledTree ["Body Text"])) (lit "font-family") r.path = some (lit "\"" ++ lit "E" ++ lit "\"" ++ more) := by
  obtain ⟨r, r1, r2, r3⟩ := blue_run
  refine ⟨r, r1, r2, ?_⟩
  obtain ⟨evs, he, hx⟩ := styled_events
  obtain ⟨table, ht, hI⟩ := styled_document
  obtain ⟨st, hs⟩ := styled_record "Style" 0 (by decide +kernel)
  obtain ⟨c, hc⟩ := styled_record "CharShape" 1 (by decide +kernel)
  obtain ⟨f, hf⟩ := styled_record "FaceName" 1 (by decide +kernel)
  have hi : ((tableRecords styledRows "CharShape")[1]?).map (fun m => shapeFace m "en") = some (some 0) := by decide +kernel
  rw [hc, Option.map_some, Option.some.injEq] at hi
  have hcounts : (styledRecords[1]?).map (fun m => (intField "ko_fonts" m.content, intField "en_fonts" m.content)) = some (some 1, some 1) := by decide +kernel
  rw [ht, Option.map_some, Option.some.injEq, Prod.mk.injEq] at hcounts
  have hface : (facesFor table "en" languages (tableRecords styledRows "FaceName"))[0]? = some f := by
    simp only [languages, facesFor, hcounts.1, hcounts.2, String.append_assoc, show ("ko" : String) ++ "_fonts" = "ko_fonts" from rfl,
      show ("en" : String) ++ "_fonts" = "en_fonts" from rfl, show ("ko" : String) ≠ "en" from by decide, if_false, if_true, Option.getD_some]
    rw [← hf]
    simp
  obtain ⟨name, more, h1, -, h2⟩ := C106_html_font_partial sampleEnv _ (fun _ => []) styledDoc ((C68_reader _ _).2 rfl) styled_proper table styledRows hI evs he styled_styles.1 true
    r (by rw [hx]; exact r1) 0 1 "en" (by decide) r3 st c f hs hc 0 hi hface
  rw [hx] at h2
  have : ((tableRecords styledRows "FaceName")[1]?).map (fun m => strField "name" m.content) = some (some (lit "E")) := by decide +kernel
  rw [hf, Option.map_some, h1, Option.some.injEq, Option.some.injEq] at this
  subst this
  exact ⟨more, h2⟩

/-- And in an office program it is not underlined. -/
example : ∃ r ∈ odtRuns (styledTree ["Body Text"]), r.text = lit "B" ∧
    officeValue (automaticStyles (styledTree ["Body Text"])) (commonStyles (styledTree ["Body Text"])) "style:text-underline-type" r.paraStyle r.spanStyle =
      some (lit "none") := by
  obtain ⟨r, r1, r2, r3, r4⟩ := blue_span
  refine ⟨r, r1, r2, ?_⟩
  obtain ⟨evs, he, hx⟩ := styled_events
  obtain ⟨table, ht, hI⟩ := styled_document
  obtain ⟨st, hs⟩ := styled_record "Style" 0 (by decide +kernel)
  obtain ⟨c, hc⟩ := styled_record "CharShape" 1 (by decide +kernel)
  obtain ⟨c0, hc0⟩ := styled_record "CharShape" 0 (by decide +kernel)
  have h1 : ((tableRecords styledRows "CharShape")[1]?).map (fun m => (shapeLine m, shapeLineStyle m)) = some (some 0, some 0) := by decide +kernel
  rw [hc, Option.map_some, Option.some.injEq, Prod.mk.injEq] at h1
  have h2 : ((tableRecords styledRows "Style")[0]?).map styleShape = some (some 0) := by decide +kernel
  rw [hs, Option.map_some, Option.some.injEq] at h2
  have := C106_odt_lines_partial sampleEnv _ (fun _ => []) styledDoc ((C68_reader _ _).2 rfl) styled_proper table styledRows hI evs he styled_styles.2
    r (by rw [hx]; exact r1) 0 1 0 r3 st c c0 hs hc h2 hc0 (.inl r4) 1 "style:text-underline-type" (by decide) 0 h1.2 (by decide)
  rw [hx] at this
  rw [this, h1.1]
  rfl

end Hwp.Props
