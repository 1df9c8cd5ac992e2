/-
Property C57: all passes over a section together (`Section.events`).
-/
import Verif.Proofs.PipelineE
import Verif.Props.Passes
namespace Hwp.Props
open Hwp Spec
set_option linter.unusedSimpArgs false

/-- The forest after the passes up to the tables, and that it is in order. -/
private theorem upToRows (f : Forest Item) (h : ProperSection f) :
    ∃ f1 f6, Texted f f1 ∧
      rowed false (adopt Item.isTableBody Item.isTableCell (adopt Item.isListHeader Item.isParagraph
        (fielded (inlined f1)))) = some f6 ∧
      InlineOk false f1 ∧ FieldsPaired (inlined f1) ∧
      (∀ a ∈ (adopt Item.isListHeader Item.isParagraph (fielded (inlined f1))).roots, a.isParagraph) ∧
      (fielded (inlined f1)).roots = f1.roots ∧ (∀ a ∈ f1.roots, a.isParagraph) ∧ Everywhere Q6 f6 ∧
      makeTexts (.ofList (eventsOf f)) = .ofList (eventsOf f1) := by
  obtain ⟨h1, h2, h3, -⟩ := h
  have hnr : ∀ b ∈ f.roots, isTextRecord b = false := by
    intro b hb
    have := h1 b hb
    cases b <;> simp_all [Item.isParagraph, isTextRecord]
  obtain ⟨f1, t1, t2⟩ := C66_texts f (Everywhere.mono nodeOk_textNodeOk f h2) hnr
  have hr1 : ∀ a ∈ f1.roots, a.isParagraph := by
    intro a ha
    rw [texted_roots t1] at ha
    exact h1 a (List.mem_filter.1 ha).1
  have hio : InlineOk false f1 := by
    refine texted_inlineOk t1 h2 false ?_
    intro _ a ha
    have := h1 a ha
    cases a <;> simp_all [Item.isParagraph, Item.isControl]
  have hfp := texted_fieldsPaired t1 h2 h3
  have hq1 := texted_Q t1 h2
  obtain ⟨hq2, hr2⟩ := inlined_Q f1 hq1
  obtain ⟨hq3, hr3⟩ := fielded_Q _ hfp hq2
  have hs3 : SiblingsOk 0 false (fielded (inlined f1)).roots := by
    rw [hr3, hr2]
    have : ∀ l : List Item, (∀ a ∈ l, a.isParagraph) → SiblingsOk 0 false l := by
      intro l hl
      induction l with
      | nil => rfl
      | cons a l ih =>
        have ha := hl a (by simp)
        cases a <;> simp [Item.isParagraph] at ha
        exact ⟨.inl rfl, ih (fun b hb => hl b (by simp [hb]))⟩
    exact this _ hr1
  obtain ⟨hq4, hs4, hr4⟩ := adopt_lists _ _ (Nat.le_refl _) hq3 0 hs3
  obtain ⟨hq5, hr5, hn5, -⟩ := adopt_cells _ _ (Nat.le_refl _) hq4 0 hs4
  obtain ⟨f6, e6, hq6, -⟩ := (rowed_ok _ hq5).1 (hn5 rfl)
  refine ⟨f1, f6, t1, e6, hio, hfp, ?_, by rw [hr3, hr2], hr1, hq6, t2⟩
  intro a ha
  have := hr4 a ha
  rw [hr3, hr2] at this
  exact hr1 a this

/-- Everything about the passes together. -/
theorem pipeline_all (sid : Option Nat) (f : Forest Item) (h : ProperSection f) :
    ∃ f1 f6 f8 cs i t, Texted f f1 ∧
      rowed false (adopt Item.isTableBody Item.isTableCell (adopt Item.isListHeader Item.isParagraph
        (fielded (inlined f1)))) = some f6 ∧
      extractSection (tokenized f6) = some ((.sectionDef i t, cs), f8) ∧
      sectionEvents sid (.ofList (eventsOf f)) =
        .ofList (eventsOf (.node (.sectionDef (sid.or i) t) (columned (cs.append f8)) .nil)) ∧
      ((tokenized f6).items.flatMap keptItem).Perm (f.items.flatMap keptItem) ∧
      ((tokenized f6).items.flatMap sectItem).Perm (f.items.flatMap sectItem) ∧
      ((tokenized f6).items.flatMap textItem).Perm (documentText f) ∧
      (pts (tokenized f6)).Perm (recPts f) ∧ own (tokenized f6) = [] ∧
      FieldsPaired (inlined f1) ∧ TextLeaves f6 ∧ Everywhere Q7 (tokenized f6) := by
  obtain ⟨f1, f6, t1, e6, hio, hfp, hpr, hr3, hr1, hq6, t2⟩ := upToRows f h
  obtain ⟨hl7, hq7, -⟩ := tokenized_ok f6 hq6
  have hkeep : ∀ {β : Type} {φ : Item → List β}, Keeps φ →
      ((tokenized f6).items.flatMap φ).Perm (f1.items.flatMap φ) := by
    intro β φ hk
    rw [tokenized_keeps hk f6 hl7, rowed_keeps hk _ _ _ e6, adopt_items, adopt_items, fielded_keeps hk _ hfp]
    exact inlined_keeps hk f1 hio
  have hkept : ((tokenized f6).items.flatMap keptItem).Perm (f.items.flatMap keptItem) := by
    rw [← (texted_kept t1 h.2.1).1]
    exact hkeep keeps_keptItem
  have hsect : ((tokenized f6).items.flatMap sectItem).Perm (f.items.flatMap sectItem) := by
    rw [← texted_sect t1]
    exact hkeep keeps_sectItem
  have htext := (hkeep keeps_textItem).trans (texted_kept t1 h.2.1).2
  obtain ⟨o1, o2, o3⟩ := texted_own t1 h.2.1
  obtain ⟨p1, p2, -⟩ := inlined_own f1 false hio o3
  have hlh : ∀ a : Item, a.isListHeader → isFrame a = false := by
    intro a ha
    cases a <;> simp_all [Item.isListHeader, isFrame, Item.isParagraph, Item.isSectionDef]
  have htb : ∀ a : Item, a.isTableBody → isFrame a = false := by
    intro a ha
    cases a <;> simp_all [Item.isTableBody, isFrame, Item.isParagraph, Item.isSectionDef]
  have a4 := adopt_own Item.isListHeader Item.isParagraph hlh _ (fielded (inlined f1)) (Nat.le_refl _)
  have a5 := adopt_own Item.isTableBody Item.isTableCell htb _
    (adopt Item.isListHeader Item.isParagraph (fielded (inlined f1))) (Nat.le_refl _)
  have a6 := rowed_own _ _ _ e6
  have a7 := tokenized_own f6 hl7
  have hpts : (pts (tokenized f6)).Perm (recPts f) := by
    rw [a7.2, a6.2, a5.2, a4.2, fielded_pts _ hfp, ← o2]
    exact p2
  have hown : own (tokenized f6) = [] := by
    rw [a7.1, a6.1, a5.1, a4.1]
    apply own_paragraphs
    rw [hr3]
    exact hr1
  have hsd : ∃ a ∈ starts (eventsOf (tokenized f6)), a.isSectionDef := by
    obtain ⟨a, ha, hs⟩ := h.2.2.2
    rw [allItems_eq] at ha
    have h1 : ∃ b, b ∈ f.items.flatMap sectItem := by
      cases a <;> simp [Item.isSectionDef] at hs
      case sectionDef i t => exact ⟨(i, t), List.mem_flatMap.2 ⟨_, ha, by simp [sectItem]⟩⟩
    obtain ⟨b, hb⟩ := h1
    obtain ⟨c, hc, hcb⟩ := List.mem_flatMap.1 (hsect.mem_iff.2 hb)
    rw [starts_eventsOf]
    refine ⟨c, hc, ?_⟩
    cases c <;> simp_all [sectItem, Item.isSectionDef]
  obtain ⟨⟨⟨sd, cs⟩, f8⟩, hx⟩ := Option.isSome_iff_exists.1 (C24_found _ hsd)
  obtain ⟨q1, q2, -⟩ := extract_Q7 _ _ _ _ hx hq7
  obtain ⟨hsd', -⟩ := C24_extract _ _ _ _ hx
  cases sd <;> simp [Item.isSectionDef] at hsd'
  case sectionDef i t =>
  refine ⟨f1, f6, f8, cs, i, t, t1, e6, hx, ?_, hkept, hsect, htext, hpts, hown, hfp, hl7, hq7⟩
  have hset : setSectId sid (.sectionDef i t) = .sectionDef (sid.or i) t := by cases sid <;> rfl
  have e4 := C21_listheader (fielded (inlined f1)) (by
    intro a ha
    rw [hr3] at ha
    have := hr1 a ha
    cases a <;> simp_all [Item.isParagraph, Item.isListHeader])
  have e5 := C21_tablebody (adopt Item.isListHeader Item.isParagraph (fielded (inlined f1))) (by
    intro a ha
    have := hpr a ha
    cases a <;> simp_all [Item.isParagraph, Item.isTableBody])
  have e7 : tokenizeText (.ofList (eventsOf f6)) = .ofList (eventsOf (tokenized f6)) := by
    have := tokenizeText_forest none f6 hl7 []
    rw [List.append_nil] at this
    simp only [tokenizeText, Gen.ofList]
    rw [this]
    simp [tokenizeTextGo, Gen.prepend]
  simp only [sectionEvents]
  rw [t2, C23_inline f1 hio, matchFields_fielded _ hfp, e4, e5, C22_rows_partial _ _ e6, e7,
    C24_wrap sid _ _ _ _ hx, hset]
  refine C25_columns_partial _ _ rfl (by simp) (columnsOk_of_Q7 _ ?_)
  rw [everywhere_append]
  exact ⟨q1, q2⟩

/-- C57: for a proper section, the passes of `Section.events` together do not fail
and give the tree that results from doing what each of them is for: making the
lines, placing the controls, nesting the fields, moving paragraphs into their list
headers and cells into their table bodies, grouping cells into rows, splitting
texts by language, making the section definition (with the given section id) the
root, and grouping paragraphs into column sets. -/
theorem C57_pipeline (sid : Option Nat) (f : Forest Item) (h : ProperSection f) :
    ∃ f1 f6 f8 cs i t, Texted f f1 ∧
      rowed false (adopt Item.isTableBody Item.isTableCell (adopt Item.isListHeader Item.isParagraph
        (fielded (inlined f1)))) = some f6 ∧
      extractSection (tokenized f6) = some ((.sectionDef i t, cs), f8) ∧
      sectionEvents sid (.ofList (eventsOf f)) =
        .ofList (eventsOf (.node (.sectionDef (sid.or i) t) (columned (cs.append f8)) .nil)) := by
  obtain ⟨f1, f6, f8, cs, i, t, h1, h2, h3, h4, -⟩ := pipeline_all sid f h
  exact ⟨f1, f6, f8, cs, i, t, h1, h2, h3, h4⟩

/-- C57: the events of a proper section are one well nested element, a section
definition of the section with the given section id; no error occurs; nothing is
lost or made up: every element other than text records, lines, fields, control
characters and the elements the passes add occurs as often as among the records,
and every paragraph has exactly the text of its records, in the same order. -/
theorem C57_content (sid : Option Nat) (f : Forest Item) (h : ProperSection f) :
    ∃ i t g, sectionEvents sid (.ofList (eventsOf f)) =
        .ofList (eventsOf (.node (.sectionDef (sid.or i) t) g .nil)) ∧
      WellNested (sectionEvents sid (.ofList (eventsOf f))).out ∧
      .sectionDef i t ∈ allItems f ∧
      ((starts (sectionEvents sid (.ofList (eventsOf f))).out).flatMap keptItem).Perm ((allItems f).flatMap keptItem) ∧
      ((starts (sectionEvents sid (.ofList (eventsOf f))).out).flatMap textItem).Perm (documentText f) ∧
      (paragraphTexts g).Perm (recordTexts f) ∧ ownText g = [] := by
  obtain ⟨f1, f6, f8, cs, i, t, -, -, hx, e, hk, hs, ht, hp, ho, -⟩ := pipeline_all sid f h
  have hi := extract_items _ _ _ _ hx
  obtain ⟨x1, x2⟩ := extract_own _ _ _ _ hx
  have hkeep : ∀ {β : Type} {φ : Item → List β}, Keeps φ → φ (.sectionDef (sid.or i) t) = φ (.sectionDef i t) →
      ((starts (eventsOf (.node (.sectionDef (sid.or i) t) (columned (cs.append f8)) .nil))).flatMap φ).Perm
        ((tokenized f6).items.flatMap φ) := by
    intro β φ hk hr
    rw [starts_eventsOf]
    refine List.Perm.trans ?_ (hi.flatMap_right φ).symm
    simp only [Forest.items, List.append_nil, List.flatMap_cons, hr, columned_keeps hk _ _ (Nat.le_refl _),
      Forest.items_append]
    exact .refl _
  have hmem : .sectionDef i t ∈ allItems f := by
    rw [allItems_eq]
    have : (i, t) ∈ (tokenized f6).items.flatMap sectItem :=
      List.mem_flatMap.2 ⟨.sectionDef i t, hi.mem_iff.2 (by simp), by simp [sectItem]⟩
    obtain ⟨b, hb, hb'⟩ := List.mem_flatMap.1 (hs.mem_iff.1 this)
    cases b <;> simp [sectItem] at hb'
    obtain ⟨rfl, rfl⟩ := hb'
    exact hb
  have hcol := columned_own _ (cs.append f8) (Nat.le_refl _)
  have hall : (pts cs ++ frame (.sectionDef i t) (own cs) ++ pts f8).Perm (recPts f) := x2.symm.trans hp
  have hquiet : ∀ x, (none, x) ∈ pts cs ++ frame (.sectionDef i t) (own cs) ++ pts f8 → x = [] :=
    fun x hx => recPts_quiet f x (hall.mem_iff.1 hx)
  have hcs : own cs = [] := hquiet _ (by simp [frame])
  have hq : ∀ x, (none, x) ∈ pts (columned (cs.append f8)) → x = [] := by
    intro x hx
    rw [hcol.2, pts_append] at hx
    apply hquiet
    simp only [List.mem_append] at hx ⊢
    exact hx.imp .inl id
  refine ⟨i, t, columned (cs.append f8), e, ?_, hmem, ?_, ?_, ?_, ?_⟩
  · rw [e]; exact wellNested_eventsOf _
  · rw [e, allItems_eq]
    exact (hkeep keeps_keptItem rfl).trans hk
  · rw [e]
    exact (hkeep keeps_textItem rfl).trans ht
  · refine (pts_paragraphTexts _ hq).trans ?_
    refine List.Perm.trans ?_ (recordTexts_perm f).symm
    refine List.Perm.trans ?_ (hall.filterMap _)
    rw [hcol.2, pts_append]
    simp [frame]
  · rw [own_of_quiet _ hq, hcol.1, own_append, hcs, x1, ho]
    rfl

/-- A paragraph with the given text, two lines and controls. -/
def smallPara (tag : Nat) (s : PyStr) (sibs : Forest Item) : Forest Item :=
  .node (.paragraph false tag)
    (.node (.paraText [⟨0, s.length, .text s⟩, ⟨s.length, s.length + 1, .ctrl (.plain 13)⟩] (tag + 100)) .nil
      (.node (.paraCharShape [(0, 3)] (tag + 200)) .nil (.node (.paraLineSeg [0] (tag + 300)) .nil .nil))) sibs

/-- A section: the first paragraph has the section definition, a column
definition, "A", a field around "B" that spans two lines, and a table with two rows
and three cells; the second paragraph follows. -/
def sampleSection : Forest Item :=
  .node (.paragraph true 1)
    (.node (.paraText [⟨0, 8, .ctrl (.other 2 [] [])⟩, ⟨8, 16, .ctrl (.other 2 [] [])⟩, ⟨16, 17, .text [65]⟩,
        ⟨17, 25, .ctrl (.other 3 [] [])⟩, ⟨25, 27, .text [66, 0xAC00]⟩, ⟨27, 35, .ctrl (.other 4 [] [])⟩,
        ⟨35, 43, .ctrl (.other 11 [] [])⟩, ⟨43, 44, .ctrl (.plain 13)⟩] 2) .nil
      (.node (.paraCharShape [(0, 7), (26, 8)] 3) .nil
        (.node (.paraLineSeg [0, 26] 4) .nil
          (.node (.sectionDef none 5) (.node (.other 1 6) .nil .nil)
            (.node (.control 1 7) .nil
              (.node (.field 1 8) (.node (.other 2 9) .nil .nil)
                (.node (.tableControl 10)
                  (.node (.listHeader 1 11) .nil (smallPara 12 [67]
                    (.node (.tableBody (some [1, 2]) 13) .nil
                      (.node (.tableCell 14) .nil (smallPara 15 [68]
                        (.node (.tableCell 16) .nil (smallPara 17 [69] (smallPara 18 [70]
                          (.node (.tableCell 19) .nil .nil))))))))) .nil)))))))
    (smallPara 20 [71] .nil)

/-- The field is split over the two lines, the table is placed in the second line
with its cells in rows and the paragraphs in their cells, and everything is in one
section definition and one column set. -/
example : ProperSection sampleSection ∧
    sectionEvents (some 3) (.ofList (eventsOf sampleSection)) = .ofList (eventsOf (
      let para := fun (tag : Nat) (c : Nat) (sibs : Forest Item) =>
        Forest.node (.paragraph false tag)
          (.node (.lineSeg (some (tag + 300), 0)) (.node (.text [c] 3 (some .en)) .nil (.node (.controlChar 13 .char 3) .nil .nil)) .nil) sibs
      Forest.node (.sectionDef (some 3) 5)
        (.node (.other 1 6) .nil
          (.node .columnSet
            (.node (.paragraph true 1)
              (.node (.lineSeg (some 4, 0))
                (.node (.control 1 7) .nil (.node (.text [65] 7 (some .en)) .nil
                  (.node (.field 1 8) (.node (.other 2 9) .nil (.node (.text [66] 7 (some .en)) .nil .nil)) .nil)))
                (.node (.lineSeg (some 4, 1))
                  (.node (.field 1 8) (.node (.text [0xAC00] 8 (some .ko)) .nil .nil)
                    (.node (.tableControl 10)
                      (.node (.listHeader 1 11) (para 12 67 .nil)
                        (.node (.tableBody none 13)
                          (.node .tableRow (.node (.tableCell 14) (para 15 68 .nil) .nil)
                            (.node .tableRow
                              (.node (.tableCell 16) (para 17 69 (para 18 70 .nil)) (.node (.tableCell 19) .nil .nil))
                              .nil)) .nil))
                      (.node (.controlChar 13 .char 8) .nil .nil))) .nil))
              (para 20 71 .nil)) .nil)) .nil)) := by
  decide +kernel

end Hwp.Props
