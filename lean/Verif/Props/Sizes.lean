/-
C112: letters are as large as the character shapes say, in a browser and in an office program.
-/
import Verif.Proofs.Sizes
import Verif.Props.Spacing
set_option linter.unusedSimpArgs false
set_option linter.unusedVariables false
set_option autoImplicit false
set_option Elab.async false
namespace Hwp.Props
open Hwp Spec

/-! ### By the XML file -/

/-- C112: the letters of a run of text are as large as its character shape says for its language.
Missing: documents without the one table of ids; styles with names that are no classes, or not distinct (`C101_style_lost`). -/
theorem C112_html_partial (doc T : Forest XNode) (ids : List (PyStr × PyStr)) (h : TablesAre doc ids T) (hN : ProperNames T) (embed : Bool)
    (r : HtmlRun) (hm : r ∈ htmlRuns doc) (s k : Nat) (l : String) (hl : l ∈ languages) (hr : RunOf r.para r.attrs s k (lit l))
    (st c : List (PyStr × PyStr) × Forest XNode) (hs : (entries "Style" T)[s]? = some st) (hc : (entries "CharShape" T)[k]? = some c)
    (n p : Int) (hz : ShapeSize c l n p) : browserSize (pageRules embed doc) r.path = some ((n : ℚ) * p / 10000) := by
  have e : langValue doc (lit "font-size") l c = fontSize c l := if_pos rfl
  rw [browserSize, styled_lang h hN embed r hm hl hr hs hc (by decide +kernel) (by rw [e]; exact fontSize_some c l), e]
  exact fontSize_value hz

/-- C112: in an office program, the letters of Western, Asian and complex scripts are as large as the character shape says for English, Korean and
other languages.
Missing: documents without the one table of ids; styles whose names are not distinct after the replacements, or taken (`C103_same_name`); runs with
another character shape than the style of the paragraph after anything else than text in their line (`C103_after_tab`); and the sizes for the four
other languages, which are not written. -/
theorem C112_odt_partial (doc T : Forest XNode) (ids : List (PyStr × PyStr)) (h : TablesAre doc ids T) (hN : OfficeNames T) (hP : ParagraphsNumbered doc)
    (r : OdtRun) (hm : r ∈ odtRuns doc) (s k q : Nat) (hr : SpanOf r.para r.attrs s k) (st c d : List (PyStr × PyStr) × Forest XNode)
    (hs : (entries "Style" T)[s]? = some st) (hq : attrOf st.1 "charshape-id" = some (Spec.decimal q))
    (hc : (entries "CharShape" T)[k]? = some c) (hd : (entries "CharShape" T)[q]? = some d)
    (ho : (∀ n ∈ r.before, n = lit "Text") ∨ q = k) (l prop : String) (hl : (l, prop) ∈ sizeScripts) (n p : Int) (hz : ShapeSize c l n p) :
    officeSize (automaticStyles doc) (commonStyles doc) prop r.paraStyle r.spanStyle = some ((n : ℚ) * p / 10000) := by
  rw [officeSize, office_value h hN hP hm hr hs hq hc hd ho, size_value doc c l prop hl]
  exact fontSize_value hz

/-! ### By the records -/

section
variable (env : XmlEnv) (rd : ModelReader Fields) (filetime : Nat → PyStr) (d : DocSource) (hrd : ReadsDecls d.version rd)
    (h : ProperDocument rd d) (table : PModel Fields) (rows : Forest (Nat × PModel Fields)) (hI : InfoDocument rd d table rows)
    (evs : List XEv) (he : documentXml env rd filetime d = .ofList evs)
include hrd h hI he

/-- The size of letters in a browser by the record of the character shape. -/
theorem html_size (hS : ProperStyles (tableRecords rows "Style")) (embed : Bool) (r : HtmlRun) (hm : r ∈ htmlRuns (xmlTree (joined evs)))
    (s k : Nat) (l : String) (hl : l ∈ languages) (hr : RunOf r.para r.attrs s k (lit l)) (style shape : PModel Fields)
    (hs : (tableRecords rows "Style")[s]? = some style) (hk : (tableRecords rows "CharShape")[k]? = some shape) :
    ∃ n p, shapeSize shape = some n ∧ shapePercent shape l = some p ∧
      browserSize (pageRules embed (xmlTree (joined evs))) r.path = some ((n : ℚ) * ((if p < 128 then (p : Int) else (p : Int) - 256 : Int) : ℚ) / 10000) := by
  obtain ⟨ids, T, hT, -, hE⟩ := info_entries env rd filetime d hrd h table rows hI evs he
  obtain ⟨st, a1, a2⟩ := forall₂_get (hE "Style" (by decide)) s style hs
  obtain ⟨c, b1, b2⟩ := forall₂_get (hE "CharShape" (by decide)) k shape hk
  obtain ⟨n, p, n1, p1, z⟩ := entry_sizes hrd b2 l hl
  exact ⟨n, p, n1, p1, C112_html_partial _ T ids hT (entries_names hrd (hE "Style" (by decide)) hS) embed r hm s k l hl hr st c a1 b1 _ _ z⟩

/-- C112: the letters of a run of text are as large in a browser as the record of its character shape says: as many percent of the size as the byte for
the language says.
Missing: more than 127 percent (`C112_html_negative`); what is missing in `C112_html_partial`; numbers of styles and shapes beyond the tables. -/
theorem C112_html_records_partial (hS : ProperStyles (tableRecords rows "Style")) (embed : Bool) (r : HtmlRun) (hm : r ∈ htmlRuns (xmlTree (joined evs)))
    (s k : Nat) (l : String) (hl : l ∈ languages) (hr : RunOf r.para r.attrs s k (lit l)) (style shape : PModel Fields)
    (hs : (tableRecords rows "Style")[s]? = some style) (hk : (tableRecords rows "CharShape")[k]? = some shape) :
    ∃ n p, shapeSize shape = some n ∧ shapePercent shape l = some p ∧
      (p < 128 → browserSize (pageRules embed (xmlTree (joined evs))) r.path = some ((n : ℚ) * p / 10000)) := by
  obtain ⟨n, p, n1, p1, key⟩ := html_size env rd filetime d hrd h table rows hI evs he hS embed r hm s k l hl hr style shape hs hk
  refine ⟨n, p, n1, p1, fun hp => ?_⟩
  rw [key, if_pos hp]
  norm_cast

/-- C112, violated: letters that should have 128 percent of the size or more are declared to have a negative size: the byte is read as a number with a
sign. -/
theorem C112_html_negative (hS : ProperStyles (tableRecords rows "Style")) (embed : Bool) (r : HtmlRun) (hm : r ∈ htmlRuns (xmlTree (joined evs)))
    (s k : Nat) (l : String) (hl : l ∈ languages) (hr : RunOf r.para r.attrs s k (lit l)) (style shape : PModel Fields)
    (hs : (tableRecords rows "Style")[s]? = some style) (hk : (tableRecords rows "CharShape")[k]? = some shape)
    (n : Int) (p : Nat) (hn : shapeSize shape = some n) (hp : shapePercent shape l = some p) (pos : 0 < n) (big : 128 ≤ p) :
    ∃ x, browserSize (pageRules embed (xmlTree (joined evs))) r.path = some x ∧ x = (n : ℚ) * ((p : ℚ) - 256) / 10000 ∧ x < 0 := by
  obtain ⟨n', p', n1, p1, key⟩ := html_size env rd filetime d hrd h table rows hI evs he hS embed r hm s k l hl hr style shape hs hk
  obtain rfl : n = n' := Option.some.inj (hn.symm.trans n1)
  obtain rfl : p = p' := Option.some.inj (hp.symm.trans p1)
  have lt : p < 256 := by
    unfold shapePercent at hp
    cases e : shape.record.payload[28 + languages.idxOf l]? with
    | none => rw [e] at hp; cases hp
    | some b =>
      rw [e, Option.map_some, Option.some.injEq] at hp
      rw [← hp]; exact UInt8.toNat_lt b
  rw [if_neg (by omega)] at key
  refine ⟨_, key, by push_cast; rfl, ?_⟩
  have h1 : (0 : ℚ) < n := by exact_mod_cast pos
  have h2 : (((p : Int) - 256 : Int) : ℚ) < 0 := by exact_mod_cast (by omega : (p : Int) - 256 < 0)
  have := mul_neg_of_pos_of_neg h1 h2
  linarith

/-- C112: the same in an office program, for the three kinds of scripts.
Missing: more than 127 percent; what is missing in `C112_odt_partial`; numbers of styles and shapes beyond the tables. -/
theorem C112_odt_records_partial (hS : OfficeStyles (tableRecords rows "Style")) (r : OdtRun) (hm : r ∈ odtRuns (xmlTree (joined evs)))
    (s k q : Nat) (hr : SpanOf r.para r.attrs s k) (style shape base : PModel Fields) (hs : (tableRecords rows "Style")[s]? = some style)
    (hk : (tableRecords rows "CharShape")[k]? = some shape) (hq : styleShape style = some q) (hb : (tableRecords rows "CharShape")[q]? = some base)
    (ho : (∀ n ∈ r.before, n = lit "Text") ∨ q = k) (l prop : String) (hl : (l, prop) ∈ sizeScripts) :
    ∃ n p, shapeSize shape = some n ∧ shapePercent shape l = some p ∧
      (p < 128 → officeSize (automaticStyles (xmlTree (joined evs))) (commonStyles (xmlTree (joined evs))) prop r.paraStyle r.spanStyle = some ((n : ℚ) * p / 10000)) := by
  obtain ⟨ids, T, hT, -, hE⟩ := info_entries env rd filetime d hrd h table rows hI evs he
  have hN := (doc_numbered env rd filetime d hrd h hI.separate evs he).1
  obtain ⟨st, a1, a2⟩ := forall₂_get (hE "Style" (by decide)) s style hs
  obtain ⟨c, b1, b2⟩ := forall₂_get (hE "CharShape" (by decide)) k shape hk
  obtain ⟨dd, d1, d2⟩ := forall₂_get (hE "CharShape" (by decide)) q base hb
  obtain ⟨q', p1, p2⟩ := entry_shape hrd a2
  obtain rfl : q' = q := by rw [p1] at hq; exact Int.ofNat.inj (Option.some.inj hq)
  have hl' : l ∈ languages := by
    have : ∀ x ∈ sizeScripts, x.1 ∈ languages := by decide
    exact this _ hl
  obtain ⟨n, p, n1, p1, z⟩ := entry_sizes hrd b2 l hl'
  refine ⟨n, p, n1, p1, fun hp => ?_⟩
  rw [if_pos hp] at z
  have := C112_odt_partial _ T ids hT (entries_office hrd (hE "Style" (by decide)) hS) hN r hm s k q' hr st c dd a1 p2 b1 d1 ho l prop hl _ _ z
  rw [this]
  norm_cast

end

/-! ### Documents -/

/-- The theorem applies: "B" has letters of 95 percent of 10.5pt. -/
example : (styledRun 1).text = lit "B" ∧ browserSize (pageRules true styledXml) (styledRun 1).path = some (399 / 40) := by
  refine ⟨by decide +kernel, ?_⟩
  obtain ⟨h1, h2, h3, h4⟩ := styled_run 1 (.inr rfl)
  rw [C112_html_partial _ _ _ styled_tables styled_names true (styledRun 1) h1 0 1 "en" (by decide) h2 (styledEntry "Style" 0) (styledEntry "CharShape" 1) h3 h4
    1050 95 ⟨by decide +kernel, ((entries "RelativeSize" (styledEntry "CharShape" 1).2).head?.getD ([], .nil)).1,
      ((entries "RelativeSize" (styledEntry "CharShape" 1).2).head?.getD ([], .nil)).2, by decide +kernel, by decide +kernel⟩]
  norm_num

theorem styled_sizes : ∀ i ∈ List.range 2, ((tableRecords styledRows "CharShape")[i]?).map (fun m => (shapeSize m, shapePercent m "en")) =
    some (some 1000, some (if i = 0 then 95 else 200)) := by decide +kernel

/-- "A" has letters of 9.5pt in an office program, by the record of its character shape. -/
example : ∃ r ∈ odtRuns (styledTree ["Body Text"]), r.text = lit "A" ∧
    officeSize (automaticStyles (styledTree ["Body Text"])) (commonStyles (styledTree ["Body Text"])) "fo:font-size" r.paraStyle r.spanStyle = some (19 / 2) := by
  have e : ((odtRuns (styledTree ["Body Text"]))[0]?).map (fun r => ((r.text, attrOf r.para "style-id", attrOf r.attrs "charshape-id"))) =
    some (lit "A", some (lit "0"), some (lit "0")) := by decide +kernel
  cases hr : (odtRuns (styledTree ["Body Text"]))[0]? with
  | none => rw [hr] at e; cases e
  | some r =>
    rw [hr, Option.map_some, Option.some.injEq, Prod.mk.injEq, Prod.mk.injEq] at e
    refine ⟨r, List.mem_of_getElem? hr, e.1, ?_⟩
    obtain ⟨evs, he, hx⟩ := styled_events
    obtain ⟨table, ht, hI⟩ := styled_document
    obtain ⟨st, hs⟩ := styled_record "Style" 0 (by decide +kernel)
    obtain ⟨c, hc⟩ := styled_record "CharShape" 0 (by decide +kernel)
    have hq : ((tableRecords styledRows "Style")[0]?).map styleShape = some (some 0) := by decide +kernel
    rw [hs, Option.map_some, Option.some.injEq] at hq
    have hz := styled_sizes 0 (by decide)
    rw [hc, Option.map_some, Option.some.injEq, Prod.mk.injEq] at hz
    obtain ⟨n, p, n1, p1, key⟩ := C112_odt_records_partial sampleEnv _ (fun _ => []) styledDoc ((C68_reader _ _).2 rfl) styled_proper table styledRows hI evs he styled_styles.2
      r (by rw [hx]; exact List.mem_of_getElem? hr) 0 0 0 ⟨e.2.1, e.2.2⟩ st c c hs hc hq hc (.inr rfl) "en" "fo:font-size" (by decide)
    obtain rfl : 1000 = n := Option.some.inj (hz.1.symm.trans n1)
    obtain rfl : 95 = p := Option.some.inj (hz.2.symm.trans p1)
    have key := key (by omega)
    rw [hx] at key
    rw [key]
    norm_num

/-- "B" should have letters of 20pt, and they are declared to have -5.6pt. -/
theorem C112_example : ∃ r ∈ htmlRuns (styledTree ["Body Text"]), r.text = lit "B" ∧ browserSize (pageRules true (styledTree ["Body Text"])) r.path = some (-28 / 5) := by
  obtain ⟨r, r1, r2, r3⟩ := blue_run
  refine ⟨r, r1, r2, ?_⟩
  obtain ⟨evs, he, hx⟩ := styled_events
  obtain ⟨table, ht, hI⟩ := styled_document
  obtain ⟨st, hs⟩ := styled_record "Style" 0 (by decide +kernel)
  obtain ⟨c, hc⟩ := styled_record "CharShape" 1 (by decide +kernel)
  have hz := styled_sizes 1 (by decide)
  rw [hc, Option.map_some, Option.some.injEq, Prod.mk.injEq] at hz
  obtain ⟨x, h1, h2, -⟩ := C112_html_negative sampleEnv _ (fun _ => []) styledDoc ((C68_reader _ _).2 rfl) styled_proper table styledRows hI evs he styled_styles.1
    true r (by rw [hx]; exact r1) 0 1 "en" (by decide) r3 st c hs hc 1000 200 hz.1 hz.2 (by omega) (by omega)
  rw [hx] at h1
  rw [h1, h2]
  norm_num

end Hwp.Props
