/-
C108 for documents as read: pages have the size and the margins the records of their section say.
-/
import Verif.Proofs.PaperDoc
import Verif.Props.PageSetup
set_option linter.unusedSimpArgs false
set_option linter.unusedVariables false
set_option autoImplicit false
set_option Elab.async false
namespace Hwp.Props
open Hwp Spec

section
variable (env : XmlEnv) (rd : ModelReader Fields) (filetime : Nat → PyStr) (d : DocSource) (hrd : ReadsDecls d.version rd)
    (h : ProperDocument rd d) (evs : List XEv) (he : documentXml env rd filetime d = .ofList evs) (papers : List Paper) (hp : PapersAre rd d papers)
include hrd h he hp

/-- C108: the XML file of a document has a section for each section of the document, in order, with the size of the paper, its orientation and the margins
its record says, wherever the passes put the text and the controls around it. -/
theorem C108_sections : ∃ secs, SectionsAre (xmlTree (joined evs)) secs ∧ List.Forall₂ PaperIs secs papers := by
  obtain ⟨secs, h1, h2⟩ := papers_shown env rd filetime d hrd h evs he papers hp
  exact ⟨secs, h1, h2.imp fun _ _ h => h.1⟩

/-- C108: every run of text in the HTML page is within an element with the margins the records of a section say, within an element as wide as they say.
Missing: as in `C108_html_partial`. -/
theorem C108_html_records_partial (r : HtmlRun) (hr : r ∈ htmlRuns (xmlTree (joined evs))) :
    ∃ (i : Nat) (p : Paper) (inner : List (PyStr × PyStr)) (frame paper : PyStr × PyStr) (outer : List (PyStr × PyStr)),
      papers[i]? = some p ∧ r.path = inner ++ frame :: paper :: outer ∧
      ((∀ n ∈ [p.width, p.height, p.left, p.right, p.top, p.bottom, p.header, p.footer], n ≤ 12000000) →
        (∃ v, valueWithin (headRules (xmlTree (joined evs))) "width" (paper :: outer) = some v ∧ ClosestMm p.across v) ∧
        (∀ x ∈ [("margin-top", p.top), ("margin-right", p.right), ("margin-bottom", p.bottom), ("margin-left", p.left)],
          ∃ v, valueWithin (headRules (xmlTree (joined evs))) x.1 (frame :: paper :: outer) = some v ∧ ClosestMm x.2 v) ∧
        (∀ x ∈ [("padding-top", p.header), ("padding-bottom", p.footer)],
          ∃ v, valueWithin (headRules (xmlTree (joined evs))) x.1 ((lit "div", lit "Page") :: frame :: paper :: outer) = some v ∧ ClosestMm x.2 v)) := by
  obtain ⟨secs, h1, h2⟩ := papers_shown env rd filetime d hrd h evs he papers hp
  obtain ⟨i, sec, inner, frame, paper, outer, g1, -, g3, g4⟩ := C108_html_partial _ secs h1 r hr
  obtain ⟨p, k1, k2⟩ := forall₂_get h2 i sec g1
  exact ⟨i, p, inner, frame, paper, outer, k1, g3, g4 p k2.1⟩

/-- C108: the pages of the master page of a section have the size, turned or not, and the margins the records of the section say. -/
theorem C108_odt_records (i : Nat) (p : Paper) (hi : papers[i]? = some p) :
    (∀ x ∈ [("fo:page-width", p.across), ("fo:page-height", p.down), ("fo:margin-top", p.top), ("fo:margin-left", p.left),
        ("fo:margin-right", p.right), ("fo:margin-bottom", p.bottom)],
      ∃ v, pageValue (masterPages (xmlTree (joined evs))) (pageLayouts (xmlTree (joined evs))) x.1 (lit "MasterPage-" ++ Spec.decimal (i + 1 : Nat)) = some v ∧
        ClosestCm x.2 v) ∧
    pageValue (masterPages (xmlTree (joined evs))) (pageLayouts (xmlTree (joined evs))) "style:print-orientation" (lit "MasterPage-" ++ Spec.decimal (i + 1 : Nat)) =
      some (lit (if p.landscape then "landscape" else "portrait")) := by
  obtain ⟨secs, h1, h2⟩ := papers_shown env rd filetime d hrd h evs he papers hp
  obtain ⟨sec, k1, k2, k3⟩ := forall₂_get h2.flip i p hi
  refine C108_odt_layout _ secs h1 i sec k1 p k2 ?_
  intro n hn
  refine k3 n ?_
  simp only [List.mem_cons, List.not_mem_nil, or_false] at hn ⊢
  omega

end

/-! ### A document with two sections -/

/-- The letter A in a section on this paper. -/
def paperStream (p : Paper) : Bytes :=
  sampleBody ++ recordBytes 73 2 ([p.width, p.height, p.left, p.right, p.top, p.bottom, p.header, p.footer, 0, if p.landscape then 1 else 0].flatMap fun n =>
    [UInt8.ofNat n, UInt8.ofNat (n / 256), UInt8.ofNat (n / 65536), UInt8.ofNat (n / 16777216)])

def paperItems : Forest Item :=
  .node (.paragraph true 0) (.node (.paraText [⟨0, 8, .ctrl (.other 2 [115, 101, 99, 100] [0, 0, 0, 0, 0, 0, 0, 0])⟩,
    ⟨8, 9, .text [65]⟩, ⟨9, 10, .ctrl (.plain 13)⟩] 1) .nil (.node (.paraCharShape [(0, 7)] 2) .nil
    (.node (.sectionDef none 3) (.node (.other (modelNames.idxOf "PageDef") 4) .nil .nil) .nil))) .nil

def uprightPaper : Paper := ⟨59528, 84188, false, 8504, 8504, 5668, 4252, 4252, 4252⟩

theorem paper_section : ∀ p ∈ [uprightPaper, turnedPaper], SectionWith (paperStream p) paperItems := by
  simp only [List.mem_cons, List.not_mem_nil, or_false, forall_eq_or_imp, forall_eq]
  exact ⟨⟨by decide +kernel, by decide +kernel, by decide +kernel, by decide +kernel, by decide +kernel, by unfold BinDataOk; decide +kernel⟩,
    ⟨by decide +kernel, by decide +kernel, by decide +kernel, by decide +kernel, by decide +kernel, by unfold BinDataOk; decide +kernel⟩⟩

/-- A section with a definition, and a definition of pages below it. -/
theorem paper_tree {rd : ModelReader Fields} {s : Bytes} (h1 : (readRecords s).err = none) (h2 : ((readRecords s).out[0]?).map Record.level = some 0)
    (h3 : (streamModels rd s).err = none) (hl : (streamModels rd s).out.map (fun m => m.record.level) = [0, 1, 1, 1, 2])
    (ht : (streamModels rd s).out.map (·.type) = ["Paragraph", "ParaText", "ParaCharShape", "SectionDef", "PageDef"]) :
    ∃ f page, StreamTree rd s f ∧ SectionPaper f page ∧ (streamModels rd s).out[4]? = some page := by
  generalize ho : (streamModels rd s).out = out at hl ht ⊢
  have hlen : out.length = 5 := by simpa using congrArg List.length hl
  obtain ⟨a, b, c, e, g, rfl⟩ : ∃ a b c e g, out = [a, b, c, e, g] := by
    match out, hlen with
    | [a, b, c, e, g], _ => exact ⟨a, b, c, e, g, rfl⟩
  · simp only [List.map_cons, List.map_nil, List.cons.injEq, and_true] at hl ht
    obtain ⟨l1, l2, l3, l4, l5⟩ := hl
    obtain ⟨t1, t2, t3, t4, t5⟩ := ht
    refine ⟨.node (0, a) (.node (1, b) .nil (.node (2, c) .nil (.node (3, e) (.node (4, g) .nil .nil) .nil))) .nil, g, ⟨h1, ?_, h3, ?_⟩, ⟨⟨e, 4, .nil, .nil, ?_⟩, ?_⟩, rfl⟩
    · intro r hr; rw [hr] at h2; simpa using h2
    · rw [startDepths_eventsOf, ho]
      simp [depthsOf, List.mapIdx_cons, l1, l2, l3, l4, l5]
    · simp [recordsWith, t1, t2, t3, t4, t5]
    · simp [recordsOf, t1, t2, t3, t4, t5]

/-- What the definition of pages in these models says, as numbers. -/
def paperNumbers (m : PModel Fields) : List (Option Int) × Option Nat :=
  (["width", "height", "left_offset", "right_offset", "top_offset", "bottom_offset", "header_offset", "footer_offset"].map fun n => intField n m.content,
    flagsField "attr" m.content)

theorem paper_numbers {m : PModel Fields} {p : Paper} {n : Nat} (h : paperNumbers m = ([(p.width : Int), (p.height : Int), (p.left : Int), (p.right : Int), (p.top : Int),
    (p.bottom : Int), (p.header : Int), (p.footer : Int)].map some, some n)) (hl : p.landscape = n.testBit 0) : RecordPaper m p := by
  simp only [paperNumbers, List.map_cons, List.map_nil, Prod.mk.injEq, List.cons.injEq, and_true] at h
  obtain ⟨⟨h1, h2, h3, h4, h5, h6, h7, h8⟩, h9⟩ := h
  refine ⟨?_, n, h9, hl⟩
  simp only [List.mem_cons, List.not_mem_nil, or_false, forall_eq_or_imp, forall_eq]
  exact ⟨h1, h2, h3, h4, h5, h6, h7, h8⟩

/-- The document: the letter A on A4 paper, and again on turned A4 paper. -/
def paperDoc : DocSource := docWith [paperStream uprightPaper, paperStream turnedPaper]

theorem paper_papers : PapersAre (directReader [5, 0, 1, 7]) paperDoc [uprightPaper, turnedPaper] where
  numbered := rfl
  count := rfl
  papers := by
    intro i s p hs hp
    match i, hs, hp with
    | 0, hs, hp =>
      obtain rfl : (0, paperStream uprightPaper) = s := by simpa [paperDoc, docWith] using hs
      obtain rfl : uprightPaper = p := by simpa using hp
      obtain ⟨f, page, h1, h2, h3⟩ := paper_tree (rd := directReader [5, 0, 1, 7]) (s := paperStream uprightPaper) (by decide +kernel) (by decide +kernel) (by decide +kernel)
        (by decide +kernel) (by decide +kernel)
      have : ((streamModels (directReader [5, 0, 1, 7]) (paperStream uprightPaper)).out[4]?).map paperNumbers =
        some ([59528, 84188, 8504, 8504, 5668, 4252, 4252, 4252].map some, some 0) := by decide +kernel
      rw [h3] at this
      exact ⟨f, page, h1, h2, paper_numbers (Option.some.inj this) rfl⟩
    | 1, hs, hp =>
      obtain rfl : (1, paperStream turnedPaper) = s := by simpa [paperDoc, docWith] using hs
      obtain rfl : turnedPaper = p := by simpa using hp
      obtain ⟨f, page, h1, h2, h3⟩ := paper_tree (rd := directReader [5, 0, 1, 7]) (s := paperStream turnedPaper) (by decide +kernel) (by decide +kernel) (by decide +kernel)
        (by decide +kernel) (by decide +kernel)
      have : ((streamModels (directReader [5, 0, 1, 7]) (paperStream turnedPaper)).out[4]?).map paperNumbers =
        some (([turnedPaper.width, turnedPaper.height, turnedPaper.left, turnedPaper.right, turnedPaper.top, turnedPaper.bottom, turnedPaper.header, turnedPaper.footer].map
          (fun n => (n : Int))).map some, some 1) := by decide +kernel
      rw [h3] at this
      exact ⟨f, page, h1, h2, paper_numbers (Option.some.inj this) rfl⟩
    | i + 2, hs, hp => simp at hp

theorem paper_proper : ProperDocument (directReader [5, 0, 1, 7]) paperDoc :=
  docWith_proper _ (by
    intro b hb
    simp only [List.mem_cons, List.not_mem_nil, or_false] at hb
    rcases hb with rfl | rfl
    · exact ⟨_, paper_section _ (by simp)⟩
    · exact ⟨_, paper_section _ (by simp)⟩)

/-- The second section is on turned paper in the office program. -/
example : ∃ evs, documentXml sampleEnv (directReader [5, 0, 1, 7]) (fun _ => []) paperDoc = .ofList evs ∧
    (∃ v, pageValue (masterPages (xmlTree (joined evs))) (pageLayouts (xmlTree (joined evs))) "fo:page-width" (lit "MasterPage-1") = some v ∧ ClosestCm 59528 v) ∧
    (∃ v, pageValue (masterPages (xmlTree (joined evs))) (pageLayouts (xmlTree (joined evs))) "fo:page-width" (lit "MasterPage-2") = some v ∧ ClosestCm 84188 v) ∧
    pageValue (masterPages (xmlTree (joined evs))) (pageLayouts (xmlTree (joined evs))) "style:print-orientation" (lit "MasterPage-1") = some (lit "portrait") ∧
    pageValue (masterPages (xmlTree (joined evs))) (pageLayouts (xmlTree (joined evs))) "style:print-orientation" (lit "MasterPage-2") = some (lit "landscape") := by
  have hrd : ReadsDecls paperDoc.version (directReader [5, 0, 1, 7]) := (C68_reader _ _).2 rfl
  obtain ⟨es, X, -, h2, -⟩ := document_shown sampleEnv (directReader [5, 0, 1, 7]) (fun _ => []) paperDoc hrd paper_proper
  have g1 := C108_odt_records sampleEnv _ _ _ hrd paper_proper X h2 _ paper_papers 0 _ rfl
  have g2 := C108_odt_records sampleEnv _ _ _ hrd paper_proper X h2 _ paper_papers 1 _ rfl
  have e1 : lit "MasterPage-" ++ Spec.decimal ((0 : Nat) + 1 : Nat) = lit "MasterPage-1" := by decide +kernel
  have e2 : lit "MasterPage-" ++ Spec.decimal ((1 : Nat) + 1 : Nat) = lit "MasterPage-2" := by decide +kernel
  rw [e1] at g1
  rw [e2] at g2
  refine ⟨X, h2, ?_, ?_, g1.2, g2.2⟩
  · exact g1.1 ("fo:page-width", 59528) List.mem_cons_self
  · exact g2.1 ("fo:page-width", 84188) List.mem_cons_self

end Hwp.Props
