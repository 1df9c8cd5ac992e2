/- C92: the text of a document. -/
import Verif.Proofs.PlainDoc
import Verif.Proofs.PlainPlace
import Verif.Props.Utf8
import Verif.Props.Html
set_option autoImplicit false
set_option linter.unusedSimpArgs false
set_option linter.unusedVariables false
namespace Hwp.Props
open Hwp Spec

/-- C92: `hwp5txt` of a proper document prints the texts of its sections in their order, and nothing else, as UTF-8;
without NUL characters, which the XML does not have.
Missing: values with characters XML does not allow and text with carriage returns, as for C74. -/
theorem C92_text_partial (declaration : Bool) (env : XmlEnv) (rd : ModelReader Fields) (filetime : Nat → PyStr) (d : DocSource)
    (hrd : ReadsDecls d.version rd) (h : ProperDocument rd d) (evs : List XEv)
    (he : documentXml env rd filetime d = .ofList evs) (hv : ∀ e ∈ evs, ValuesOk e) :
    ∃ (text : Nat × Bytes → PyStr) (bytes : Bytes),
      (∀ s ∈ d.sections, ∃ f, StreamTree rd s.2 f ∧ SectionText (f.map fun p => itemOf p.1 p.2) (text s)) ∧
      decodeUtf8 bytes = some (noNul (d.sections.flatMap text)) ∧
      (∀ cwd fs, fileMain (textTransform parseFile) cwd none (.ok (xmlDump declaration (documentXml env rd filetime d))) fs =
        ⟨0, bytes, fs⟩) ∧
      ∀ cwd fs o parent name, ProperFS fs → pathSegments cwd o = parent ++ [name] → o ≠ [] → o.getLast? ≠ some slash →
        (∀ s ∈ parent ++ [name], PlainName s) → fs parent = some .dir → fs (parent ++ [name]) ≠ some .dir →
        fileMain (textTransform parseFile) cwd (some o) (.ok (xmlDump declaration (documentXml env rd filetime d))) fs =
          ⟨0, [], fs.set (parent ++ [name]) (.file bytes)⟩ := by
  obtain ⟨bs, h1, -, h3⟩ := C86_document_partial declaration env rd filetime d hrd h evs he hv
  obtain ⟨f, body, sorted, hf, hsec, -, hev, hshow⟩ := document_parts rd filetime d hrd h
  obtain ⟨es, X, g1, g2, g3, -⟩ := document_shown env rd filetime d hrd h
  obtain rfl : es = _ := ofList_injective (g1.symm.trans hev)
  obtain rfl : X = evs := ofList_injective (g2.symm.trans he)
  have hbody : ∀ s ∈ d.sections, (AllSound (concItem (streamModels rd s.2).out ⟨some d.version, none⟩) (body s) ∧ Leafy (body s)) ∧
      (∀ m, .start m ∈ eventsOf ((body s).map (concItem (streamModels rd s.2).out ⟨some d.version, none⟩)) → IdHeard env m) ∧
      ∃ f, StreamTree rd s.2 f ∧ SectionText (f.map fun p => itemOf p.1 p.2) (shownText (body s)) := by
    intro s hs
    obtain ⟨f, hf, -, hp, hb⟩ := hsec s hs
    obtain ⟨hl, ht⟩ := section_of_records hf _ hp _ hb
    have hh := section_heard env rd d.version hrd _ s.2 f hf (h.sectionData s hs) _ hb
    refine ⟨⟨fun a ha => (hh a ha).2, hl⟩, fun m hm => ?_, f, hf, ht⟩
    obtain ⟨a, h1, rfl⟩ := start_map _ _ _ hm
    exact (hh a h1).1
  obtain ⟨s1, s2⟩ := stream_sections (fun s => concItem (streamModels rd s.2).out ⟨some d.version, none⟩) body d.sections fun s hs => (hbody s hs).1
  obtain ⟨ht, pre, Y, post, hX, hY⟩ := doc_text env d.version h.version _ (docinfoEvs d f)
    (d.sections.flatMap fun s => eventsOf ((body s).map (concItem (streamModels rd s.2).out ⟨some d.version, none⟩))) _ rfl
    (treelike_element _ (treelike_flatMap fun t _ => treelike_element _ (treelike_flatMap fun p _ => property_treelike filetime p)))
    ⟨_, (docinfo_part env rd d hrd h f hf).2.2⟩ (treelike_flatMap fun s _ => treelike_eventsOf _) _ g3 (hshow env).1
    (by
      intro m hm
      obtain ⟨s, hs, hm⟩ := List.mem_flatMap.1 hm
      exact (hbody s hs).2.1 m hm) s2
  obtain ⟨bytes, hbytes⟩ := (utf8Encode_ok _).2 (writable_stream Y (fun e he => hv e (by rw [hX]; simp [he])) 0)
  rw [← hY, s1] at hbytes
  rw [s1] at ht
  refine ⟨fun s => shownText (body s), bytes, fun s hs => (hbody s hs).2.2, (C86_utf8 _ _).1 hbytes, fun cwd fs => ?_, ?_⟩
  · rw [h1]
    simp only [fileMain, transformHwp5, textTransform, h3, ht, hbytes]
    rfl
  · intro cwd fs o parent name hfs
    rw [h1]
    exact (C91_file (textTransform parseFile) bs bytes (by simp only [textTransform, h3, ht, hbytes]) cwd fs hfs).2 o parent name

/-- C92: the text of a section is that of its records, in their order, except that the text `X` of the section
definition comes first. -/
theorem C92_order (rd : ModelReader Fields) (s : Bytes) (f : Forest (Nat × PModel Fields)) (hf : StreamTree rd s f) (T : PyStr)
    (h : SectionText (f.map fun p => itemOf p.1 p.2) T) :
    ∃ X p q, T = X ++ p ++ q ∧ (recordText allDefs (f.map fun p => itemOf p.1 p.2) = p ++ X ++ q ∨
      recordText allDefs (f.map fun p => itemOf p.1 p.2) = p ++ q) := by
  obtain ⟨i, t, X, h1, h2, rfl⟩ := h
  rcases text_place t _ (tree_defCount hf i t h1) with ⟨p, q, hp⟩ | ⟨c, hc⟩
  · have e1 : _ = _ := hp []
    have e2 : _ = _ := hp X
    dsimp only at e1 e2
    exact ⟨X, p, q, by rw [e1]; simp, .inl (by rw [← h2, e2])⟩
  · have e1 : _ = _ := hc []
    have e2 : _ = _ := hc X
    dsimp only at e1 e2
    exact ⟨X, c, [], by rw [e1]; simp, .inr (by rw [← h2, e2]; simp)⟩

/-- C92: a paragraph without tables and other controls is a line with its text. -/
theorem C92_line (n : Bool) (i j k l : Nat) (chunks : List Chunk) (shapes : List (Nat × Nat)) (lines : List Nat) (rest : Forest Item)
    (defs : Nat → Option PyStr) :
    recordText defs (.node (.paragraph n i) (.node (.paraText chunks j) .nil (.node (.paraCharShape shapes k) .nil
      (.node (.paraLineSeg lines l) .nil .nil))) rest) = plainChunks chunks ++ [10] ++ recordText defs rest := by
  have hp : ∀ cs : List Chunk, placed [] cs = plainChunks cs := by
    intro cs
    induction cs with
    | nil => rfl
    | cons c cs ih =>
      obtain ⟨s, t, v⟩ := c
      cases v with
      | text s => simp [placed, plainChunks, ih]
      | ctrl d => simp [placed, plainChunks, ih]
  have hc : paraChunks [Item.paraText chunks j, .paraCharShape shapes k, .paraLineSeg lines l] = chunks := by
    simp [paraChunks]
  simp [recordText, rootTexts, nodeText, standIn, Item.isParagraph, Item.isControl, hc, hp]

/-- A paragraph "a", tab, "b" with the section definition. -/
def tabItems : Forest Item :=
  .node (.paragraph true 0) (.node (.paraText [⟨0, 8, .ctrl (.other 2 [115, 101, 99, 100] [])⟩, ⟨8, 9, .text [97]⟩,
    ⟨9, 17, .ctrl (.other 9 [] [])⟩, ⟨17, 18, .text [98]⟩, ⟨18, 19, .ctrl (.plain 13)⟩] 1) .nil (.node (.paraCharShape [(0, 7)] 2) .nil
    (.node (.sectionDef none 3) .nil .nil))) .nil

/-- C92: not all of the text is printed.  Tables and drawings are printed as a mark, without the text in them; tabs
are not printed and the words beside them run together. -/
theorem C92_lost :
    (ProperSection sampleSection ∧ 68 ∈ documentText sampleSection ∧ 68 ∉ recordText allDefs sampleSection ∧
      recordText allDefs sampleSection = lit "AB가\n<표>\n\nG\n") ∧
    ProperSection tabItems ∧ recordText allDefs tabItems = lit "ab\n" := by
  decide +kernel

/-- A document whose XML cannot be parsed: nothing is printed, the exit status is 1, and a file at the destination
is emptied. -/
theorem C92_not_parsed (xml : Bytes) (hx : parseFile xml = none) (cwd : List PyStr) (fs : FS) :
    fileMain (textTransform parseFile) cwd none (.ok (xml, none)) fs = ⟨1, [], fs⟩ ∧
    ∀ o parent name, ProperFS fs → pathSegments cwd o = parent ++ [name] → o ≠ [] → o.getLast? ≠ some slash →
      (∀ s ∈ parent ++ [name], PlainName s) → fs parent = some .dir → fs (parent ++ [name]) ≠ some .dir →
      fileMain (textTransform parseFile) cwd (some o) (.ok (xml, none)) fs = ⟨1, [], fs.set (parent ++ [name]) (.file [])⟩ := by
  have ht : textTransform parseFile xml = ([], some .exception) := by simp only [textTransform, hx]
  refine ⟨by simp only [fileMain, transformHwp5, ht]; rfl, ?_⟩
  intro o parent name hfs hp ho hl hplain hd hn
  cases o with
  | nil => exact absurd rfl ho
  | cons c cs =>
    unfold fileMain
    simp only [transformHwp5, ht, if_neg hl, hp, writeWith_ok (fun s hs => hplain s (by simp [hs])) (hplain name (by simp)) (dirAt_of_proper hfs hd) hn]
    rfl

/-- The sample document with the title U+0001. -/
def controlTitleDoc : DocSource :=
  { sampleDoc with summary := ⟨0xfffe, 0, 2, clsidHwpSummary, [⟨clsidHwpSummary, 48, [⟨0, 36, some "PID_DICTIONARY", .dictionary []⟩,
    ⟨2, 24, some "PIDSI_TITLE", .lpwstr [1]⟩]⟩]⟩ }

/-- C92 is violated by a control character in any value of the document, here in its title: nothing of the text is printed. -/
theorem C92_control_character (fs : FS) :
    ProperDocument (directReader [5, 0, 1, 7]) controlTitleDoc ∧
    (xmlDump true (documentXml sampleEnv (directReader [5, 0, 1, 7]) (fun _ => []) controlTitleDoc)).2 = none ∧
    fileMain (textTransform parseFile) [] none
      (.ok (xmlDump true (documentXml sampleEnv (directReader [5, 0, 1, 7]) (fun _ => []) controlTitleDoc))) fs = ⟨1, [], fs⟩ := by
  have h2 : (xmlDump true (documentXml sampleEnv (directReader [5, 0, 1, 7]) (fun _ => []) controlTitleDoc)).2 = none := by decide +kernel
  have h3 : parseFile (xmlDump true (documentXml sampleEnv (directReader [5, 0, 1, 7]) (fun _ => []) controlTitleDoc)).1 = none := by
    decide +kernel
  have p := sample_proper
  refine ⟨⟨p.version, ⟨[0xfe, 0xff, 0, 0, 2, 0, 0, 0] ++ clsidHwpSummary.map UInt8.ofNat ++ [1, 0, 0, 0] ++ clsidHwpSummary.map UInt8.ofNat ++
    [48, 0, 0, 0] ++ [0, 0, 0, 0, 2, 0, 0, 0] ++ [2, 0, 0, 0, 24, 0, 0, 0] ++ [0, 0, 0, 0, 36, 0, 0, 0] ++
    [0x1f, 0, 0, 0, 2, 0, 0, 0, 1, 0, 0, 0] ++ [0, 0, 0, 0], by decide +kernel⟩, p.docinfo, p.docinfoTypes, p.docinfoData, p.embedded,
    p.sections, p.sectionData⟩, h2, ?_⟩
  rw [show xmlDump true (documentXml sampleEnv (directReader [5, 0, 1, 7]) (fun _ => []) controlTitleDoc) = (_, none) from Prod.ext rfl h2]
  exact (C92_not_parsed _ h3 [] fs).1

/-- The text of the sample document of C73, through all steps. -/
example : (fileMain (textTransform parseFile) [] none
    (.ok (xmlDump true (documentXml sampleEnv (directReader [5, 0, 1, 7]) (fun _ => []) sampleDoc))) (fun _ => none)).stdout = asciiBytes "A\n" := by
  decide +kernel
example : recordText allDefs sampleItems = lit "A\n" ∧ recordText (insteadOf 3 (lit "x")) sampleItems = lit "xA\n" := by decide +kernel
example : SectionText sampleItems (lit "A\n") := ⟨none, 3, [], by decide +kernel, by decide +kernel, by decide +kernel⟩
example : recordText allDefs (smallPara 1 [65] (smallPara 2 [66] .nil)) = lit "A\nB\n" := by decide +kernel

/-- The templates of the stylesheet. -/
example : plaintextXsl (xmlTree [.start (lit "HwpDoc") [], .start (lit "DocInfo") [], .text (lit "no"), .stop (lit "DocInfo"),
    .start (lit "BodyText") [], .start (lit "Paragraph") [], .start (lit "Text") [], .text (lit "a"), .stop (lit "Text"),
    .start (lit "ControlChar") [], .text (lit "x"), .stop (lit "ControlChar"), .start (lit "TableControl") [], .text (lit "y"), .stop (lit "TableControl"),
    .stop (lit "Paragraph"), .stop (lit "BodyText"), .stop (lit "HwpDoc")]) = lit "a\n<표>\n\n" := by decide +kernel

end Hwp.Props
