/-
C111: lines have the distance that the paragraph shapes say, in a browser and in an office program.
-/
import Verif.Proofs.Spacing
import Verif.Props.Margins
set_option linter.unusedSimpArgs false
set_option linter.unusedVariables false
set_option autoImplicit false
set_option Elab.async false
namespace Hwp.Props
open Hwp Spec

/-! ### By the XML file -/

section
variable (doc T : Forest XNode) (ids : List (PyStr × PyStr)) (h : TablesAre doc ids T)
include h

section
variable (hN : ProperNames T) (embed : Bool) (r : HtmlRun) (hm : r ∈ htmlRuns doc) (s j q : Nat) (hr : ShapedPara r.para s j)
    (st p d : List (PyStr × PyStr) × Forest XNode) (hs : (entries "Style" T)[s]? = some st) (hj : (entries "ParaShape" T)[j]? = some p)
    (hq : attrOf st.1 "parashape-id" = some (Spec.decimal q)) (hd : (entries "ParaShape" T)[q]? = some d)
include hN hm hr hs hj hq hd

/-- C111: the lines of a run of text are as high as the paragraph shape of its paragraph says, if it says so in percent of the size of the letters.
Missing: documents without the one table of ids; styles with names that are no classes, or not distinct; paragraphs with the paragraph shape of
their style, if this is a style of characters; and all other kinds of distances (`C111_html_lost`, `C111_html_kept`). -/
theorem C111_html_partial (hk : q = j → attrOf st.1 "kind" = some (lit "paragraph")) (n : Int) (ha : ShapeSpacing p.1 "ratio" n) :
    browserLines (pageRules embed doc) r.path = some ((n : ℚ) / 100) := by
  obtain ⟨rest, hpath, _⟩ := htmlRuns_path doc r hm
  rw [hpath, browserLines, own_lines h hN embed hr hs hj hq hd, lineValues_ratio ha]
  by_cases e : q = j
  · subst e
    obtain rfl : d = p := Option.some.inj (hd.symm.trans hj)
    rw [if_pos rfl, if_pos (hk rfl), lineValues_ratio ha]
    exact number_bare n
  · rw [if_neg e]
    exact number_bare n

/-- C111, violated: a paragraph shape that says another kind of distance, as a fixed one: nothing is declared for the lines, also not by the style, if
the shape of the style is of another kind, too. -/
theorem C111_html_lost (kind kind' : String) (n n' : Int) (ha : ShapeSpacing p.1 kind n) (hk : kind ≠ "ratio") (hb : ShapeSpacing d.1 kind' n')
    (hk' : kind' ≠ "ratio") : ownValue (pageRules embed doc) (lit "line-height") r.path = none := by
  obtain ⟨rest, hpath, _⟩ := htmlRuns_path doc r hm
  rw [hpath, own_lines h hN embed hr hs hj hq hd, lineValues_other ha hk, lineValues_other hb hk']
  simp

/-- C111, violated: a paragraph shape that says another kind of distance, as a fixed one, while the shape of the style says percents: the lines are
as high as the style says. -/
theorem C111_html_kept (kind : String) (n n' : Int) (ha : ShapeSpacing p.1 kind n) (hk : kind ≠ "ratio") (hb : ShapeSpacing d.1 "ratio" n')
    (hs' : attrOf st.1 "kind" = some (lit "paragraph")) : browserLines (pageRules embed doc) r.path = some ((n' : ℚ) / 100) := by
  obtain ⟨rest, hpath, _⟩ := htmlRuns_path doc r hm
  rw [hpath, browserLines, own_lines h hN embed hr hs hj hq hd, lineValues_other ha hk, lineValues_ratio hb, if_pos hs']
  simp only [ite_self, List.getLast?_nil]
  exact number_bare n'

end

section
variable (hN : OfficeNames T) (hP : ParagraphsNumbered doc)
    (r : OdtRun) (hm : r ∈ odtRuns doc) (s j q : Nat) (hr : ShapedPara r.para s j) (st p d : List (PyStr × PyStr) × Forest XNode)
    (hs : (entries "Style" T)[s]? = some st) (hq : attrOf st.1 "parashape-id" = some (Spec.decimal q))
    (hj : (entries "ParaShape" T)[j]? = some p) (hd : (entries "ParaShape" T)[q]? = some d)
include hN hP hm hr hs hq hj hd

/-- C111: in an office program, distances in percent and fixed ones are those of the paragraph shape.
Missing: documents without the one table of ids; styles whose names are not distinct after the replacements, or taken; and the distances of which only
the space between the lines or the least distance is said (`C111_odt_kept`). -/
theorem C111_odt_partial (n : Int) :
    (ShapeSpacing p.1 "ratio" n → officeLines (automaticStyles doc) (commonStyles doc) "%" r.paraStyle = some (n : ℚ)) ∧
    (ShapeSpacing p.1 "fixed" n → officeLines (automaticStyles doc) (commonStyles doc) "pt" r.paraStyle = some ((n : ℚ) / 200)) := by
  obtain ⟨hf, hB⟩ := run_from hm
  rcases hf with e | ⟨x, hx, i, l, hl, t, ht, e⟩
  · have := hr.style
    rw [e] at this
    simp [attrOf] at this
  have hp : r.para = x.1 := by rw [e]; rfl
  rw [hp] at hr
  have v := fun v hv => para_set h hN hP hx hr hs hq hd hj hB "fo:line-height" (by decide +kernel) (v := v) hv (i + 1) r.before t.1 (firstText t.2)
  rw [← e] at v
  refine ⟨fun ha => ?_, fun ha => ?_⟩
  · rw [officeLines, v _ (lines_ratio ha), Option.bind_some, number_value]
    simp
  · rw [officeLines, v _ (lines_fixed ha), Option.bind_some, ptOf_value]

/-- C111, violated: a paragraph shape that says only the space between the lines or their least distance, while the shape of the style says percents:
the lines have the height that the style says. -/
theorem C111_odt_kept (kind : String) (n n' : Int) (ha : ShapeSpacing p.1 kind n) (hk : kind = "spaceonly" ∨ kind = "minimum")
    (hb : ShapeSpacing d.1 "ratio" n') : officeLines (automaticStyles doc) (commonStyles doc) "%" r.paraStyle = some (n' : ℚ) := by
  obtain ⟨hf, hB⟩ := run_from hm
  rcases hf with e | ⟨x, hx, i, l, hl, t, ht, e⟩
  · have := hr.style
    rw [e] at this
    simp [attrOf] at this
  have hp : r.para = x.1 := by rw [e]; rfl
  rw [hp] at hr
  have v := para_kept h hN hP hx hr hs hq hd hj hB "fo:line-height" (by decide +kernel)
    (lines_other ha (by rcases hk with rfl | rfl <;> decide) (by rcases hk with rfl | rfl <;> decide)) (i + 1) r.before t.1 (firstText t.2)
  rw [← e] at v
  rw [officeLines, v, lines_ratio hb, Option.bind_some, number_value]
  simp

end

end

/-! ### By the records -/

section
variable (env : XmlEnv) (rd : ModelReader Fields) (filetime : Nat → PyStr) (d : DocSource) (hrd : ReadsDecls d.version rd)
    (h : ProperDocument rd d) (table : PModel Fields) (rows : Forest (Nat × PModel Fields)) (hI : InfoDocument rd d table rows)
    (evs : List XEv) (he : documentXml env rd filetime d = .ofList evs)
include hrd h hI he

/-- C111: the lines of a run of text are as high in a browser as the record of its paragraph shape says, if it says so in percent.
Missing: what is missing in `C111_html_partial`, and numbers of styles and shapes beyond the tables. -/
theorem C111_html_records_partial (hS : ProperStyles (tableRecords rows "Style")) (embed : Bool) (r : HtmlRun) (hm : r ∈ htmlRuns (xmlTree (joined evs)))
    (s j q : Nat) (hr : ShapedPara r.para s j) (style shape base : PModel Fields) (hs : (tableRecords rows "Style")[s]? = some style)
    (hj : (tableRecords rows "ParaShape")[j]? = some shape) (hq : styleParaShape style = some q) (hb : (tableRecords rows "ParaShape")[q]? = some base)
    (hk : q = j → ofParagraphs style = true) :
    ∃ kind n, recordSpacing shape = some (kind, n) ∧
      (kind = "ratio" → browserLines (pageRules embed (xmlTree (joined evs))) r.path = some ((n : ℚ) / 100)) := by
  obtain ⟨ids, T, hT, -, hE⟩ := info_entries env rd filetime d hrd h table rows hI evs he
  obtain ⟨st, a1, a2⟩ := forall₂_get (hE "Style" (by decide)) s style hs
  obtain ⟨p, b1, b2⟩ := forall₂_get (hE "ParaShape" (by decide)) j shape hj
  obtain ⟨dd, d1, d2⟩ := forall₂_get (hE "ParaShape" (by decide)) q base hb
  obtain ⟨kind, n, m1, m2⟩ := entry_spacing hrd b2
  obtain ⟨q', p1, p2⟩ := entry_parashape hrd a2
  obtain rfl : q' = q := by rw [p1] at hq; exact Int.ofNat.inj (Option.some.inj hq)
  refine ⟨kind, n, m1, ?_⟩
  rintro rfl
  exact C111_html_partial _ T ids hT (entries_names hrd (hE "Style" (by decide)) hS) embed r hm s j q' hr st p dd a1 b1 p2 d1 (fun g => entry_kind hrd a2 (hk g)) n m2

/-- C111: distances in percent and fixed ones are those of the record of the paragraph shape in an office program.
Missing: what is missing in `C111_odt_partial`, and numbers of styles and shapes beyond the tables. -/
theorem C111_odt_records_partial (hS : OfficeStyles (tableRecords rows "Style")) (r : OdtRun) (hm : r ∈ odtRuns (xmlTree (joined evs)))
    (s j q : Nat) (hr : ShapedPara r.para s j) (style shape base : PModel Fields) (hs : (tableRecords rows "Style")[s]? = some style)
    (hj : (tableRecords rows "ParaShape")[j]? = some shape) (hq : styleParaShape style = some q) (hb : (tableRecords rows "ParaShape")[q]? = some base) :
    ∃ kind n, recordSpacing shape = some (kind, n) ∧
      (kind = "ratio" → officeLines (automaticStyles (xmlTree (joined evs))) (commonStyles (xmlTree (joined evs))) "%" r.paraStyle = some (n : ℚ)) ∧
      (kind = "fixed" → officeLines (automaticStyles (xmlTree (joined evs))) (commonStyles (xmlTree (joined evs))) "pt" r.paraStyle = some ((n : ℚ) / 200)) := by
  obtain ⟨ids, T, hT, -, hE⟩ := info_entries env rd filetime d hrd h table rows hI evs he
  have hN := (doc_numbered env rd filetime d hrd h hI.separate evs he).1
  obtain ⟨st, a1, a2⟩ := forall₂_get (hE "Style" (by decide)) s style hs
  obtain ⟨p, b1, b2⟩ := forall₂_get (hE "ParaShape" (by decide)) j shape hj
  obtain ⟨dd, d1, d2⟩ := forall₂_get (hE "ParaShape" (by decide)) q base hb
  obtain ⟨kind, n, m1, m2⟩ := entry_spacing hrd b2
  obtain ⟨q', p1, p2⟩ := entry_parashape hrd a2
  obtain rfl : q' = q := by rw [p1] at hq; exact Int.ofNat.inj (Option.some.inj hq)
  obtain ⟨k1, k2⟩ := C111_odt_partial _ T ids hT (entries_office hrd (hE "Style" (by decide)) hS) hN r hm s j q' hr st p dd a1 p2 b1 d1 n
  exact ⟨kind, n, m1, fun e => k1 (e ▸ m2), fun e => k2 (e ▸ m2)⟩

end

/-! ### A document -/

/-- Four paragraph shapes: 160 percent, a fixed distance of 15pt, 75 percent, at least 10pt; a style with the first one.  "A", "B", "C", "D" with the four shapes. -/
def spacingXml : Forest XNode :=
  let shape (kind amount : String) (sibs : Forest XNode) := el "ParaShape" [("align", "both"), ("numbering-bullet-id", "0"), ("doubled-margin-left", "0"), ("doubled-margin-right", "0"),
    ("doubled-margin-top", "0"), ("doubled-margin-bottom", "0"), ("indent", "0"), ("linespacing-type", kind), ("linespacing", amount)] .nil sibs
  let para (n text : String) (sibs : Forest XNode) := el "Paragraph" [("parashape-id", n), ("style-id", "0"), ("paragraph-id", n), ("new-page", "0")]
      (el "LineSeg" [] (el "Text" [("charshape-id", "0"), ("lang", "en")] (.node (.text (lit text)) .nil .nil))) sibs
  el "HwpDoc" [] (el "DocInfo" [] (el "IdMappings" []
    (el "CharShape" [] .nil (shape "ratio" "160" (shape "fixed" "3000" (shape "ratio" "75" (shape "minimum" "2000"
    (el "Style" [("local-name", "Body"), ("name", "Body"), ("kind", "paragraph"), ("parashape-id", "0"), ("charshape-id", "0")] .nil)))))))
  (el "BodyText" [] (el "SectionDef" [] (el "ColumnSet" [] (para "0" "A" (para "1" "B" (para "2" "C" (para "3" "D" .nil))))))))

def spacingIds : List (PyStr × PyStr) × Forest XNode := ((elementsNamed "IdMappings" spacingXml).head?).getD ([], .nil)

theorem spacing_tables : TablesAre spacingXml spacingIds.1 spacingIds.2 where
  hwpdoc := ⟨_, _, rfl, _, _, rfl, by decide +kernel⟩
  ids := by decide +kernel
  only := by decide +kernel

theorem spacing_proper : ProperNames spacingIds.2 where
  ident := by decide +kernel
  distinct := by decide +kernel
  shapes := by decide +kernel

theorem spacing_office : OfficeNames spacingIds.2 where
  distinct := by decide +kernel
  free := by decide +kernel

theorem spacing_numbered : ParagraphsNumbered spacingXml := by
  refine ⟨?_, by decide +kernel⟩
  have : ∀ p ∈ elementsNamed "Paragraph" spacingXml, ∃ n < 4, attrOf p.1 "paragraph-id" = some (Spec.decimal (n : Nat)) := by
    decide +kernel
  intro p hp
  obtain ⟨n, _, h⟩ := this p hp
  exact ⟨n, h⟩

def spacingEntry (name : String) (i : Nat) : List (PyStr × PyStr) × Forest XNode := ((entries name spacingIds.2)[i]?).getD ([], .nil)

theorem spacing_shapes : ShapeSpacing (spacingEntry "ParaShape" 0).1 "ratio" 160 ∧ ShapeSpacing (spacingEntry "ParaShape" 1).1 "fixed" 3000 ∧
    ShapeSpacing (spacingEntry "ParaShape" 2).1 "ratio" 75 ∧ ShapeSpacing (spacingEntry "ParaShape" 3).1 "minimum" 2000 :=
  ⟨⟨by decide +kernel, by decide +kernel⟩, ⟨by decide +kernel, by decide +kernel⟩, ⟨by decide +kernel, by decide +kernel⟩, ⟨by decide +kernel, by decide +kernel⟩⟩

theorem spacing_runs : ∀ i ∈ List.range 4, ((htmlRuns spacingXml)[i]?).map (fun r => (r.text, attrOf r.para "style-id", attrOf r.para "parashape-id")) =
      some ([0x41 + i], some (Spec.decimal (0 : Nat)), some (Spec.decimal i)) ∧
    ((odtRuns spacingXml)[i]?).map (fun r => (r.text, attrOf r.para "style-id", attrOf r.para "parashape-id")) =
      some ([0x41 + i], some (Spec.decimal (0 : Nat)), some (Spec.decimal i)) := by decide +kernel

/-- The theorem applies, and the violations: "A" has lines of 1.6 sizes of the letters, "C" of 0.75; but "B" and "D" have lines as "A". -/
theorem C111_html_example : ∀ i : Nat, i < 4 → ∃ r ∈ htmlRuns spacingXml, r.text = [0x41 + i] ∧
    browserLines (pageRules false spacingXml) r.path = some (if i = 2 then 3 / 4 else 8 / 5) := by
  intro i hi
  have e := (spacing_runs i (List.mem_range.2 hi)).1
  cases hr : (htmlRuns spacingXml)[i]? with
  | none => rw [hr] at e; cases e
  | some r =>
    rw [hr, Option.map_some, Option.some.injEq, Prod.mk.injEq, Prod.mk.injEq] at e
    obtain ⟨e1, e2, e3⟩ := e
    refine ⟨r, List.mem_of_getElem? hr, e1, ?_⟩
    have hs : (entries "Style" spacingIds.2)[0]? = some (spacingEntry "Style" 0) := by decide +kernel
    have hl : ∀ i ∈ List.range 4, (entries "ParaShape" spacingIds.2)[i]? = some (spacingEntry "ParaShape" i) := by decide +kernel
    have hj := fun i (hi : i < 4) => hl i (List.mem_range.2 hi)
    have hk : attrOf (spacingEntry "Style" 0).1 "kind" = some (lit "paragraph") := by decide +kernel
    have hq : attrOf (spacingEntry "Style" 0).1 "parashape-id" = some (Spec.decimal (0 : Nat)) := by decide +kernel
    obtain ⟨s0, s1, s2, s3⟩ := spacing_shapes
    have ratio := C111_html_partial _ _ _ spacing_tables spacing_proper false r (List.mem_of_getElem? hr) 0 i 0 ⟨e2, e3⟩ _ _ _ hs (hj i hi) hq (hj 0 (by omega)) (fun _ => hk)
    have kept := C111_html_kept _ _ _ spacing_tables spacing_proper false r (List.mem_of_getElem? hr) 0 i 0 ⟨e2, e3⟩ _ _ _ hs (hj i hi) hq (hj 0 (by omega))
    have : i = 0 ∨ i = 1 ∨ i = 2 ∨ i = 3 := by omega
    rcases this with rfl | rfl | rfl | rfl
    · rw [ratio _ s0]; norm_num
    · rw [kept _ _ _ s1 (by decide) s0 hk]; norm_num
    · rw [ratio _ s2]; norm_num
    · rw [kept _ _ _ s3 (by decide) s0 hk]; norm_num

/-- The theorem applies in an office program: "B" has lines of 15pt and "C" of 75 percent; but "D" has lines of 160 percent. -/
theorem C111_odt_example : (∃ r ∈ odtRuns spacingXml, r.text = lit "B" ∧ officeLines (automaticStyles spacingXml) (commonStyles spacingXml) "pt" r.paraStyle = some 15) ∧
    (∃ r ∈ odtRuns spacingXml, r.text = lit "C" ∧ officeLines (automaticStyles spacingXml) (commonStyles spacingXml) "%" r.paraStyle = some 75) ∧
    (∃ r ∈ odtRuns spacingXml, r.text = lit "D" ∧ officeLines (automaticStyles spacingXml) (commonStyles spacingXml) "%" r.paraStyle = some 160) := by
  have hs : (entries "Style" spacingIds.2)[0]? = some (spacingEntry "Style" 0) := by decide +kernel
  have hl : ∀ i ∈ List.range 4, (entries "ParaShape" spacingIds.2)[i]? = some (spacingEntry "ParaShape" i) := by decide +kernel
  have hj := fun i (hi : i < 4) => hl i (List.mem_range.2 hi)
  have hq : attrOf (spacingEntry "Style" 0).1 "parashape-id" = some (Spec.decimal (0 : Nat)) := by decide +kernel
  have run : ∀ i < 4, ∃ r ∈ odtRuns spacingXml, r.text = [0x41 + i] ∧ ShapedPara r.para 0 i := by
    intro i hi
    have e := (spacing_runs i (List.mem_range.2 hi)).2
    cases hr : (odtRuns spacingXml)[i]? with
    | none => rw [hr] at e; cases e
    | some r =>
      rw [hr, Option.map_some, Option.some.injEq, Prod.mk.injEq, Prod.mk.injEq] at e
      exact ⟨r, List.mem_of_getElem? hr, e.1, e.2.1, e.2.2⟩
  obtain ⟨s0, s1, s2, s3⟩ := spacing_shapes
  refine ⟨?_, ?_, ?_⟩
  · obtain ⟨r, hm, ht, hr⟩ := run 1 (by omega)
    refine ⟨r, hm, ht, ?_⟩
    rw [(C111_odt_partial _ _ _ spacing_tables spacing_office spacing_numbered r hm 0 1 0 hr _ _ _ hs hq (hj 1 (by omega)) (hj 0 (by omega)) _).2 s1]
    norm_num
  · obtain ⟨r, hm, ht, hr⟩ := run 2 (by omega)
    refine ⟨r, hm, ht, ?_⟩
    rw [(C111_odt_partial _ _ _ spacing_tables spacing_office spacing_numbered r hm 0 2 0 hr _ _ _ hs hq (hj 2 (by omega)) (hj 0 (by omega)) _).1 s2]
    norm_num
  · obtain ⟨r, hm, ht, hr⟩ := run 3 (by omega)
    refine ⟨r, hm, ht, ?_⟩
    rw [C111_odt_kept _ _ _ spacing_tables spacing_office spacing_numbered r hm 0 3 0 hr _ _ _ hs hq (hj 3 (by omega)) (hj 0 (by omega)) _ _ _ s3 (.inr rfl) s0]
    norm_num

/-! ### From records -/

theorem styled_spacing : ((tableRecords styledRows "ParaShape")[0]?).map recordSpacing = some (some ("ratio", 160)) := by decide +kernel

/-- The theorem applies: the lines of "B" are 1.6 times as high as its letters, by the record of its paragraph shape. -/
example : ∃ r ∈ htmlRuns (styledTree ["Body Text"]), r.text = lit "B" ∧ browserLines (pageRules true (styledTree ["Body Text"])) r.path = some (8 / 5) := by
  have e := blue_attrs
  cases hr : (htmlRuns (styledTree ["Body Text"]))[1]? with
  | none => rw [hr] at e; cases e
  | some r =>
    rw [hr, Option.map_some, Option.some.injEq, Prod.mk.injEq] at e
    simp only [List.cons.injEq, and_true] at e
    refine ⟨r, List.mem_of_getElem? hr, e.1, ?_⟩
    obtain ⟨evs, he, hx⟩ := styled_events
    obtain ⟨table, ht, hI⟩ := styled_document
    obtain ⟨st, hs⟩ := styled_record "Style" 0 (by decide +kernel)
    obtain ⟨p, hp⟩ := styled_record "ParaShape" 0 (by decide +kernel)
    have hk : ((tableRecords styledRows "Style")[0]?).map (fun s => (ofParagraphs s, styleParaShape s)) = some (true, some 0) := by decide +kernel
    have ha := styled_spacing
    rw [hs, Option.map_some, Option.some.injEq, Prod.mk.injEq] at hk
    rw [hp, Option.map_some, Option.some.injEq] at ha
    obtain ⟨kind, n, h1, key⟩ := C111_html_records_partial sampleEnv _ (fun _ => []) styledDoc ((C68_reader _ _).2 rfl) styled_proper table styledRows hI evs he styled_styles.1
      true r (by rw [hx]; exact List.mem_of_getElem? hr) 0 0 0 ⟨e.2.1, e.2.2.1⟩ st p p hs hp hk.2 hp (fun _ => hk.1)
    obtain ⟨rfl, rfl⟩ : "ratio" = kind ∧ 160 = n := by
      have := ha.symm.trans h1
      rw [Option.some.injEq, Prod.mk.injEq] at this
      exact this
    have key := key rfl
    rw [hx] at key
    rw [key]
    norm_num

end Hwp.Props
