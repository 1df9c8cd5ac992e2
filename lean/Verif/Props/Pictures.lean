/- C100: the pictures of a document in HTML and in ODT. -/
import Verif.Proofs.Pictures
import Verif.Props.Pages
import Verif.Props.Package
import Verif.Props.Html
set_option autoImplicit false
set_option linter.unusedSimpArgs false
set_option linter.unusedVariables false
set_option Elab.async false
namespace Hwp.Props
open Hwp Spec

/-- C100: the HTML of a proper document has the pictures of its sections, in the order of the sections, between pictures `H` and `F` from the
headers and the footers of the document.  A picture is given by the number it refers to: those on the page of a section and those
out of view together are the numbers of all picture records of the section, each exactly as often; and out of view are pictures that are not in
the lines of a paragraph or the drawings in them.  The image of a picture with the number `k` is the file `bindata/NAME`, where `NAME`
is the stream of the `k`-th `BinData` record below `IdMappings`; it has no source if this record has no embedded data.
Missing: that nothing is out of view, which is not so; `BinData` records with records below them, and what is missing for C93. -/
theorem C100_html_partial (declaration : Bool) (env : XmlEnv) (rd : ModelReader Fields) (filetime : Nat → PyStr) (d : DocSource)
    (hrd : ReadsDecls d.version rd) (h : ProperDocument rd d) (hd : d.bindata = none) (evs : List XEv)
    (he : documentXml env rd filetime d = .ofList evs) (hv : ∀ e ∈ evs, ValuesOk e) :
    ∃ (xml : Bytes) (images : List (Option PyStr)) (docinfo : Forest (Nat × PModel Fields)) (H F : List PyStr) (pages : List (List PyStr × List PyStr)),
      xmlDump declaration (documentXml env rd filetime d) = (xml, none) ∧
      imagesOf parseFile htmlImages xml = some images ∧
      StreamTree rd d.docinfo docinfo ∧
      (DataLeaves docinfo → List.Forall₂ (fun t img => ∀ k : Nat, t = Spec.decimal k → img = (dataStream docinfo k).map fun nm => lit "bindata/" ++ nm)
        (pages.map fun p => H ++ p.1 ++ F).flatten images) ∧
      List.Forall₂ (fun s p => ∃ f, StreamTree rd s.2 f ∧ ∃ ks : List Nat, pictureRefs f = ks.map (fun k : Nat => some (k : Int)) ∧
        (p.1 ++ p.2).Perm (ks.map fun k : Nat => Spec.decimal k)) d.sections pages ∧
      (pages.map (·.2)).flatten = (hiddenInSections htmlPlaces (· = .anything) .anything (bodyTree (xmlTree (joined evs)))).map refText ∧
      (∃ rest, (H ++ rest).Perm ((picturesIn "Header" (xmlTree (joined evs))).map refText)) ∧
      ∃ rest, (F ++ rest).Perm ((picturesIn "Footer" (xmlTree (joined evs))).map refText) := by
  obtain ⟨bs, h1, -, h3⟩ := C86_document_partial declaration env rd filetime d hrd h evs he hv
  obtain ⟨a0, a1, a2, a3, T1, T2, T3, docinfo, ht, hn, -, hf, Z, p, hZ, hT⟩ := doc_nodes env rd filetime d hrd h evs he
  generalize hDoc : xmlTree (joined evs) = doc at *
  obtain ⟨pages, p1, p2, p3⟩ := sections_pictures html_agrees htmlShows _ html_seen .all .anything rfl
    (descend (lit "Header") (forEach (lit "HeaderParagraphList") fun cs => walkPictures htmlSheet htmlShows cs .paragraphs) doc)
    (descend (lit "Footer") (forEach (lit "FooterParagraphList") fun cs => walkPictures htmlSheet htmlShows cs .paragraphs) doc) _ _ hn
    (Q := fun s l => ∃ f, StreamTree rd s.2 f ∧ ∃ ks : List Nat, pictureRefs f = ks.map (fun k : Nat => some (k : Int)) ∧
      (l.map refText).Perm (ks.map fun k : Nat => Spec.decimal k)) (by
      intro s _ cs hc l hl
      obtain ⟨f, hf, ks, k1, k2⟩ := sectionOf_pictures hrd hc
      refine ⟨f, hf, ks, k1, (hl.map _).trans ?_⟩
      simpa [decimal_nat, noNul_natStr] using k2)
  refine ⟨bs, htmlImages doc, docinfo,
    (descend (lit "Header") (forEach (lit "HeaderParagraphList") fun cs => walkPictures htmlSheet htmlShows cs .paragraphs) doc).map refText,
    (descend (lit "Footer") (forEach (lit "FooterParagraphList") fun cs => walkPictures htmlSheet htmlShows cs .paragraphs) doc).map refText,
    pages.map fun p => (p.1.map refText, p.2.map refText), h1, by simp only [imagesOf, h3, Option.map_some, hDoc], hf, ?_, ?_, ?_, ?_, ?_⟩
  · intro hl
    have e : htmlImages doc = (forEach (lit "SectionDef") (htmlSectionPictures doc) T3).map (htmlImage doc) := by
      have e' : ∀ doc', forEach (lit "HwpDoc") (forEach (lit "BodyText") (forEach (lit "SectionDef") (htmlSectionPictures doc'))) doc =
          forEach (lit "SectionDef") (htmlSectionPictures doc') T3 := by
        intro doc'
        rw [ht]
        simp [forEach, lit_eq]
      exact congrArg _ (e' _)
    rw [e, show forEach (lit "SectionDef") (htmlSectionPictures doc) T3 = _ from p2]
    have e2 : ∀ A B : List (Forest XNode), ((pages.map fun p => (p.1.map refText, p.2.map refText)).map fun p => A.map refText ++ p.1 ++ B.map refText).flatten =
        ((pages.map fun pg => A ++ pg.1 ++ B).flatten).map refText := by
      intro A B
      rw [List.map_flatten, List.map_map, List.map_map]
      congr 1
      apply List.map_congr_left
      intro pg _
      simp
    rw [e2]
    rw [List.forall₂_map_left_iff, List.forall₂_map_right_iff]
    apply List.forall₂_same.2
    intro x _ k hk
    exact (doc_images env rd d hrd h hd docinfo hf Z p hZ T2 hT doc (by
      intro id
      rw [ht]
      simp [binDataNodes, forEach, lit_eq]) x k (by rw [hk, decimal_nat])).1 hl
  · rw [List.forall₂_map_right_iff]
    refine p1.imp ?_
    intro s pg hq
    simpa using hq
  · rw [List.map_map]
    have : hiddenInSections htmlPlaces (fun p => decide (p = .anything)) .anything (bodyTree doc) = (pages.map (·.2)).flatten := by
      rw [p3, ht]; rfl
    rw [this, List.map_flatten, List.map_map]
    rfl
  · obtain ⟨rest, hr⟩ := descend_pictures "Header" "HeaderParagraphList" doc
    exact ⟨rest.map refText, by rw [← List.map_append]; exact hr.map _⟩
  · obtain ⟨rest, hr⟩ := descend_pictures "Footer" "FooterParagraphList" doc
    exact ⟨rest.map refText, by rw [← List.map_append]; exact hr.map _⟩

/-- C100: the content of the ODT of a proper document has the pictures of its sections, in the order of the sections.  Pictures in the document
and pictures out of view together are all picture records; out of view are pictures that are not in a drawing with the id `$pic` in
the lines of a paragraph.  The image of a picture with the number `k` is a link to `bindata/NAME`, where `NAME` is the stream of the
`k`-th `BinData` record below `IdMappings`, with no data in it; it is empty if this record has no embedded data.
Missing: that nothing is out of view, which is not so; and what is missing for C93. -/
theorem C100_odt_partial (declaration : Bool) (env : XmlEnv) (rd : ModelReader Fields) (filetime : Nat → PyStr) (d : DocSource)
    (hrd : ReadsDecls d.version rd) (h : ProperDocument rd d) (hd : d.bindata = none) (evs : List XEv)
    (he : documentXml env rd filetime d = .ofList evs) (hv : ∀ e ∈ evs, ValuesOk e) :
    ∃ (xml : Bytes) (docinfo : Forest (Nat × PModel Fields)) (pages : List (List Nat × List Nat)),
      xmlDump declaration (documentXml env rd filetime d) = (xml, none) ∧
      StreamTree rd d.docinfo docinfo ∧
      imagesOf parseFile odtImages xml = some ((pages.map (·.1)).flatten.map fun k : Nat =>
        ⟨(dataStream docinfo k).map fun nm => lit "bindata/" ++ nm, []⟩) ∧
      List.Forall₂ (fun s p => ∃ f, StreamTree rd s.2 f ∧ ((p.1 ++ p.2).map fun k : Nat => some (k : Int)).Perm (pictureRefs f)) d.sections pages ∧
      (pages.map (·.2)).flatten.map (fun k : Nat => Spec.decimal k) =
        (hiddenInSections odtPlaces (· = .picture) .anything (bodyTree (xmlTree (joined evs)))).map refText := by
  obtain ⟨bs, h1, -, h3⟩ := C86_document_partial declaration env rd filetime d hrd h evs he hv
  obtain ⟨a0, a1, a2, a3, T1, T2, T3, docinfo, ht, hn, -, hf, Z, p, hZ, hT⟩ := doc_nodes env rd filetime d hrd h evs he
  generalize hDoc : xmlTree (joined evs) = doc at *
  obtain ⟨pages, p1, p2, p3⟩ := sections_pictures odt_agrees odtShows _ odt_seen .all .anything rfl [] [] _ _ hn
    (Q := fun s l => ∃ f, StreamTree rd s.2 f ∧ ∃ ks : List Nat, pictureRefs f = ks.map (fun k : Nat => some (k : Int)) ∧
      (l.map refText).Perm (ks.map fun k : Nat => natStr k)) (by
      intro s _ cs hc l hl
      obtain ⟨f, hf, ks, k1, k2⟩ := sectionOf_pictures hrd hc
      refine ⟨f, hf, ks, k1, (hl.map _).trans ?_⟩
      simpa [noNul_natStr] using k2)
  simp only [List.nil_append, List.append_nil] at p2
  let num : Forest XNode → Nat := fun x => (xpathNumber (refText x)).getD 0
  have hnum : ∀ pg ∈ pages, ∀ x ∈ pg.1 ++ pg.2, refText x = natStr (num x) := by
    intro pg hpg x hx
    obtain ⟨s, -, f, -, ks, -, hp⟩ := forall₂_right p1 pg hpg
    have := hp.subset (List.mem_map_of_mem hx)
    obtain ⟨k, -, hk⟩ := List.mem_map.1 this
    simp only [num]
    rw [← hk, xpathNumber_natStr]
    rfl
  refine ⟨bs, docinfo, pages.map fun p => (p.1.map num, p.2.map num), h1, hf, ?_, ?_, ?_⟩
  · simp only [imagesOf, h3, Option.map_some, hDoc]
    congr 1
    have e : odtImages doc = ((pages.map (·.1)).flatten).map (odtImage doc) := by
      rw [← p2]
      unfold odtImages
      rw [ht]
      simp [forEach, lit_eq]
    have e2 : ((pages.map fun p => (p.1.map num, p.2.map num)).map (·.1)).flatten = ((pages.map (·.1)).flatten).map num := by
      rw [List.map_flatten, List.map_map, List.map_map]
      rfl
    rw [e, e2, List.map_map]
    apply List.map_congr_left
    intro x hx
    obtain ⟨l, hl, hx⟩ := List.mem_flatten.1 hx
    obtain ⟨pg, hpg, rfl⟩ := List.mem_map.1 hl
    exact (doc_images env rd d hrd h hd docinfo hf Z p hZ T2 hT doc (by
      intro id
      rw [ht]
      simp [binDataNodes, forEach, lit_eq]) x (num x) (hnum pg hpg x (by simp [hx]))).2
  · rw [List.forall₂_map_right_iff]
    refine p1.imp ?_
    rintro s pg ⟨f, hf, ks, k1, k2⟩
    refine ⟨f, hf, ?_⟩
    rw [k1, ← List.map_append]
    refine List.Perm.map _ ?_
    have := k2.map fun t => (xpathNumber t).getD 0
    simpa [List.map_map, Function.comp_def, xpathNumber_natStr, num] using this
  · have : hiddenInSections odtPlaces (fun p => decide (p = .picture)) .anything (bodyTree doc) = (pages.map (·.2)).flatten := by
      rw [p3, ht]; rfl
    rw [this, List.map_flatten, List.map_flatten, List.map_map, List.map_map, List.map_map]
    congr 1
    apply List.map_congr_left
    intro pg hpg
    simp only [Function.comp_apply, List.map_map]
    apply List.map_congr_left
    intro x hx
    rw [Function.comp_apply, decimal_nat, hnum pg hpg x (by simp [hx])]

/-! ### The files the images are taken from -/

/-- C100: the source `bindata/NAME` of an image, taken relative to the directory of the page, is the file with the data of the stream `NAME`.
Missing: what is missing for C89; names with control character 5, which get another name; names with '/'. -/
theorem C100_html_file_partial (xsl : HtmlXsl) (xml xhtml css : Bytes) (hx : xsl.xhtml xml = (xhtml, none)) (hc : xsl.css xml = (css, none))
    (es : StgEntries) (hb : Unpackable es) (cwd : List PyStr) (path : PyStr) (output : Option PyStr)
    (hdest : htmlDest path output ≠ []) (parent : List PyStr) (name : PyStr) (hp : pathSegments cwd (htmlDest path output) = parent ++ [name])
    (hplain : ∀ s ∈ parent ++ [name], 5 ∉ s ∧ PlainName s) (fs : FS) (hfs : ProperFS fs) (hdir : fs parent = some .dir)
    (hfile : ∀ d, fs (parent ++ [name]) ≠ some (.file d)) :
    ∃ fs', htmlMain xsl cwd path output (.ok ⟨(xml, none), some es⟩) fs = (0, fs') ∧
      fs' (parent ++ [name] ++ [lit "index.xhtml"]) = some (.file xhtml) ∧
      ∀ nm data, ([nm], data) ∈ streams es → 5 ∉ nm → 0x2f ∉ nm → nm ≠ [] →
        fs' (pathSegments (parent ++ [name]) (lit "bindata/" ++ nm)) = some (.file data) := by
  obtain ⟨fs', h1, h2, -⟩ := C89_directory_partial xsl xml xhtml css hx hc (some es) (by rintro _ ⟨⟩; exact hb) cwd path output hdest parent name hp
    hplain fs hfs hdir hfile
  refine ⟨fs', h1, by rw [h2]; simp [htmlNode], ?_⟩
  intro nm data hm h5 hs hne
  have hseg : pathSegments (parent ++ [name]) (lit "bindata/" ++ nm) = parent ++ [name] ++ [lit "bindata", nm] := by
    unfold pathSegments
    rw [show lit "bindata/" ++ nm = lit "bindata" ++ 0x2f :: nm from rfl, splitSlash_append _ _ (by decide), splitSlash_plain _ hs, if_neg (by rw [show (lit "bindata" ++ 0x2f :: nm).head? = some 0x62 from rfl]; decide)]
    rw [List.filter_cons_of_pos (by decide +kernel), List.filter_cons_of_pos (by simpa using hne), List.filter_nil]
  rw [hseg, h2, htmlNode, if_pos rfl]
  have := nodeAt_stream es hb nm [] data hm
  rw [fileName_plain _ h5] at this
  exact this

/-- C100: the link `bindata/NAME` of an image is the name of the file of the package with the data of the stream `NAME`, and of no other file.
Missing: what is missing for C87. -/
theorem C100_odt_file_partial (xsl : OdtXsl) (xml styles content : Bytes) (hs : xsl.styles xml = .ok styles)
    (hc : xsl.content xml = .ok content) (bindata : List (PyStr × Bytes)) (h : ∀ x ∈ bindata, XmlName x.1) (hd : (bindata.map (·.1)).Nodup) :
    ∃ zip, odtMain xsl (.ok ⟨(xml, none), some (bindata.map fun x => (x.1, .stream (.ok x.2)))⟩) = (0, some zip) ∧
      (lit "content.xml", content) ∈ zip ∧ ∀ nm data, (nm, data) ∈ bindata ↔ (lit "bindata/" ++ nm, data) ∈ zip := by
  obtain ⟨m, h1, -⟩ := C87_package_partial xsl xml styles content hs hc (some bindata) h
  have hn := names_distinct styles content m (odtMediaType.map UInt8.ofNat) bindata hd
  refine ⟨_, h1, by simp [odtParts], ?_⟩
  intro nm data
  have far : ∀ t : PyStr, t.head? ≠ some 0x62 → lit "bindata/" ++ nm ≠ t := by
    rintro _ ht rfl
    exact ht rfl
  simp only [Option.getD_some, odtParts, List.map_append, List.map_cons, List.map_nil, List.map_map, List.mem_append, List.mem_cons, List.not_mem_nil,
    or_false, List.mem_map, Function.comp_apply, Prod.mk.injEq, far (lit "styles.xml") (by decide), far (lit "content.xml") (by decide),
    far (lit "manifest.rdf") (by decide), far (lit "META-INF/manifest.xml") (by decide), far (lit "mimetype") (by decide), false_and, false_or]
  constructor
  · intro hm
    exact ⟨_, hm, rfl, rfl⟩
  · rintro ⟨x, hx, h2, h3⟩
    obtain ⟨a, b⟩ := x
    obtain rfl : a = nm := List.append_cancel_left h2
    obtain rfl : b = data := h3
    exact hx

/-! ### A document with pictures -/

/-- `DocInfo` with two `BinData` records below `IdMappings`: linked data, and a picture in the file. -/
def pictureInfo : Bytes :=
  recordBytes 16 0 (List.replicate 26 1) ++ recordBytes 17 0 (List.replicate 64 0) ++
  recordBytes 18 1 [0, 0, 0, 0, 0, 0] ++ recordBytes 18 1 [1, 0, 0x1a, 0, 3, 0, 0x70, 0, 0x6e, 0, 0x67, 0]

/-- A picture with the data of this number. -/
def pictureRecord (level : Nat) (k : UInt8) : Bytes := recordBytes 85 level (List.replicate 71 0 ++ [k, 0])

/-- A drawing right below its control. -/
def topShape (level : Nat) (chid : String) (more : Bytes) : Bytes := recordBytes 76 level (asciiBytes chid ++ asciiBytes chid ++ List.replicate 92 0 ++ more)

/-- A drawing in a drawing. -/
def innerShape (chid : String) : Bytes := recordBytes 76 3 (asciiBytes chid ++ List.replicate 92 0)

/-- "A" and a drawing. -/
def drawingBody (shapes : Bytes) : Bytes :=
  oneParagraph 18 ([0x41, 0] ++ ([11, 0] ++ asciiBytes " osg" ++ [0, 0, 0, 0, 0, 0, 0, 0, 11, 0]))
    (recordBytes 71 1 (asciiBytes " osg" ++ List.replicate 40 0) ++ shapes)

/-- "A" and a picture. -/
def pictureBody : Bytes := drawingBody (topShape 2 "cip$" [] ++ pictureRecord 3 2)

/-- "A" and a group of two pictures. -/
def groupBody : Bytes := drawingBody (topShape 2 "noc$" [0, 0] ++ innerShape "cip$" ++ pictureRecord 4 2 ++ innerShape "cip$" ++ pictureRecord 4 1)

/-- "A" and a control with a list of one paragraph with a picture. -/
def pictureListBody (code : UInt8) (chid : String) (control : Bytes) : Bytes :=
  oneParagraph 18 ([0x41, 0] ++ ([code, 0] ++ asciiBytes chid ++ [0, 0, 0, 0, 0, 0, 0, 0, code, 0]))
    (recordBytes 71 1 (asciiBytes chid ++ control) ++
      recordBytes 72 2 ([1, 0, 0, 0, 0, 0, 0, 0] ++ List.replicate 20 0) ++
      recordBytes 66 2 [9, 0, 0, 0, 0, 8, 0, 0, 0, 0, 0, 0, 1, 0, 0, 0, 0, 0, 0, 0, 0, 0] ++
      recordBytes 67 3 ([11, 0] ++ asciiBytes " osg" ++ [0, 0, 0, 0, 0, 0, 0, 0, 11, 0, 13, 0]) ++ recordBytes 68 3 [0, 0, 0, 0, 7, 0, 0, 0] ++
      recordBytes 71 3 (asciiBytes " osg" ++ List.replicate 40 0) ++ topShape 4 "cip$" [] ++ pictureRecord 5 2)

/-- The items of `pictureListBody`. -/
def pictureListItems (code : Nat) (chid : Bytes) (control list : Nat) : Forest Item :=
  .node (.paragraph true 0) (.node (.paraText [⟨0, 8, .ctrl (.other 2 [115, 101, 99, 100] [0, 0, 0, 0, 0, 0, 0, 0])⟩,
    ⟨8, 9, .text [65]⟩, ⟨9, 17, .ctrl (.other code chid [0, 0, 0, 0, 0, 0, 0, 0])⟩, ⟨17, 18, .ctrl (.plain 13)⟩] 1) .nil
    (.node (.paraCharShape [(0, 7)] 2) .nil (.node (.sectionDef none 3) .nil (.node (.control control 4)
      (.node (.listHeader list 5) .nil (.node (.paragraph false 6)
        (.node (.paraText [⟨0, 8, .ctrl (.other 11 [103, 115, 111, 32] [0, 0, 0, 0, 0, 0, 0, 0])⟩, ⟨8, 9, .ctrl (.plain 13)⟩] 7) .nil
          (.node (.paraCharShape [(0, 7)] 8) .nil (.node (.gshapeControl 9) (.node (.shapeComponent 10) (.node (.other 35 11) .nil .nil) .nil) .nil)))
        .nil)) .nil)))) .nil

/-- The items of `drawingBody`. -/
def drawingItems (shapes : Forest Item) : Forest Item :=
  .node (.paragraph true 0) (.node (.paraText [⟨0, 8, .ctrl (.other 2 [115, 101, 99, 100] [0, 0, 0, 0, 0, 0, 0, 0])⟩,
    ⟨8, 9, .text [65]⟩, ⟨9, 17, .ctrl (.other 11 [103, 115, 111, 32] [0, 0, 0, 0, 0, 0, 0, 0])⟩, ⟨17, 18, .ctrl (.plain 13)⟩] 1) .nil
    (.node (.paraCharShape [(0, 7)] 2) .nil (.node (.sectionDef none 3) .nil (.node (.gshapeControl 4) shapes .nil)))) .nil

theorem picture_section : SectionWith pictureBody (drawingItems (.node (.shapeComponent 5) (.node (.other 35 6) .nil .nil) .nil)) where
  records := by decide +kernel
  level := by decide +kernel
  models := by decide +kernel
  same := by decide +kernel
  proper := by decide +kernel
  data := by unfold BinDataOk; decide +kernel

theorem group_section : SectionWith groupBody (drawingItems (.node (.shapeComponent 5)
    (.node (.shapeComponent 6) (.node (.other 35 7) .nil .nil) (.node (.shapeComponent 8) (.node (.other 35 9) .nil .nil) .nil)) .nil)) where
  records := by decide +kernel
  level := by decide +kernel
  models := by decide +kernel
  same := by decide +kernel
  proper := by decide +kernel
  data := by unfold BinDataOk; decide +kernel

theorem noted_section : SectionWith (pictureListBody 17 "  nf" (List.replicate 12 0)) (pictureListItems 17 [102, 110, 32, 32] 52 22) where
  records := by decide +kernel
  level := by decide +kernel
  models := by decide +kernel
  same := by decide +kernel
  proper := by decide +kernel
  data := by unfold BinDataOk; decide +kernel

theorem headed_section : SectionWith (pictureListBody 16 "daeh" (List.replicate 4 0)) (pictureListItems 16 [104, 101, 97, 100] 50 101) where
  records := by decide +kernel
  level := by decide +kernel
  models := by decide +kernel
  same := by decide +kernel
  proper := by decide +kernel
  data := by unfold BinDataOk; decide +kernel

/-- A document with a picture and a group of pictures, a picture in a footnote and a picture in a header. -/
def pictureDoc : DocSource := ⟨[5, 0, 1, 7], sampleSummaryObj, pictureInfo, [(0, pictureBody), (1, groupBody), (2, pictureListBody 17 "  nf" (List.replicate 12 0)),
  (3, pictureListBody 16 "daeh" (List.replicate 4 0))], none⟩

theorem picture_proper : ProperDocument (directReader [5, 0, 1, 7]) pictureDoc where
  version := rfl
  summary := sample_proper.summary
  docinfo := streamTree_exists _ _ (by decide +kernel) (by
    intro r hr
    have : ((readRecords pictureInfo).out[0]?).map Record.level = some 0 := by decide +kernel
    rw [show pictureDoc.docinfo = pictureInfo from rfl] at hr
    rw [hr] at this
    simpa using this) (by decide +kernel)
  docinfoTypes := by decide +kernel
  docinfoData := by unfold BinDataOk; decide +kernel
  embedded := by
    intro bd hbd
    cases hbd
  sections := (docWith_proper [pictureBody, groupBody, pictureListBody 17 "  nf" (List.replicate 12 0), pictureListBody 16 "daeh" (List.replicate 4 0)] (by
    simp only [List.mem_cons, List.not_mem_nil, or_false, forall_eq_or_imp, forall_eq]
    exact ⟨⟨_, picture_section⟩, ⟨_, group_section⟩, ⟨_, noted_section⟩, _, headed_section⟩)).sections
  sectionData := (docWith_proper [pictureBody, groupBody, pictureListBody 17 "  nf" (List.replicate 12 0), pictureListBody 16 "daeh" (List.replicate 4 0)] (by
    simp only [List.mem_cons, List.not_mem_nil, or_false, forall_eq_or_imp, forall_eq]
    exact ⟨⟨_, picture_section⟩, ⟨_, group_section⟩, ⟨_, noted_section⟩, _, headed_section⟩)).sectionData

/-- The events of the file. -/
def pictureXml : Gen XEv := documentXml sampleEnv (directReader [5, 0, 1, 7]) (fun _ => []) pictureDoc

/-- The numbers and the names, as read from the records. -/
example : (streamModels (directReader [5, 0, 1, 7]) groupBody).out.map (fun m => pictureRef m.content) =
    [none, none, none, none, none, none, none, some 2, none, some 1] := by decide +kernel
example : (streamModels (directReader [5, 0, 1, 7]) pictureInfo).out.map dataName = [none, none, none, some (lit "BIN001A.png")] := by decide +kernel

/-- C100 is violated: a picture in a header is not in the text document, and a picture in a footnote is not on the page; the picture of the header
is on the page of every section.  The third picture has no source, since its data are not in the file. -/
theorem C100_pictures_lost :
    ProperDocument (directReader [5, 0, 1, 7]) pictureDoc ∧
    (pictureDoc.sections.map fun s => (streamModels (directReader [5, 0, 1, 7]) s.2).out.filterMap fun m => pictureRef m.content) = [[2], [2, 1], [2], [2]] ∧
    imagesOf parseFile htmlImages (xmlDump true pictureXml).1 = some ((fun t => [t, t, t, t, none, t, t]) (some (lit "bindata/BIN001A.png"))) ∧
    imagesOf parseFile odtImages (xmlDump true pictureXml).1 = some ((fun t => [t, t, ⟨none, []⟩, t]) ⟨some (lit "bindata/BIN001A.png"), []⟩) := by
  refine ⟨picture_proper, by decide +kernel, ?_⟩
  obtain ⟨es, X, -, h2, -⟩ := document_shown sampleEnv (directReader [5, 0, 1, 7]) (fun _ => []) pictureDoc ((C68_reader _ _).2 rfl) picture_proper
  have hX : pictureXml = .ofList X := h2
  have h : (fun X : List XEv => X.all valuesOkB &&
      (fun T => htmlImages T == (fun t => [t, t, t, t, none, t, t]) (some (lit "bindata/BIN001A.png")) &&
        odtImages T == (fun t => [t, t, ⟨none, []⟩, t]) ⟨some (lit "bindata/BIN001A.png"), []⟩) (xmlTree (joined X))) pictureXml.out = true := by decide +kernel
  rw [hX] at h
  simp only [Gen.ofList, Bool.and_eq_true, beq_iff_eq, List.all_eq_true] at h
  obtain ⟨bs, g1, -, g2⟩ := C86_document_partial true sampleEnv (directReader [5, 0, 1, 7]) (fun _ => []) pictureDoc ((C68_reader _ _).2 rfl) picture_proper X h2
    fun e he => valuesOk_of e (h.1 e he)
  unfold imagesOf pictureXml
  rw [g1]
  dsimp only
  rw [g2]
  exact ⟨congrArg some h.2.1, congrArg some h.2.2⟩

/-- The pictures out of view in this document: for the text document that of the header; for the page that of the footnote and, in its place, that of
the header. -/
example : (hiddenInSections odtPlaces (· = .picture) .anything (bodyTree (xmlTree (joined pictureXml.out)))).map refText = [lit "2"] ∧
    (hiddenInSections htmlPlaces (· = .anything) .anything (bodyTree (xmlTree (joined pictureXml.out)))).map refText = [lit "2", lit "2"] ∧
    (picturesIn "Header" (xmlTree (joined pictureXml.out))).map refText = [lit "2"] := by decide +kernel

/-- Data in the XML, as with `hwp5odt --document`. -/
example : htmlImage (el "HwpDoc" [] (el "DocInfo" [] (el "IdMappings" [] (el "BinData" [("storage", "embedding")]
      (el "BinDataEmbedding" [("storage-id", "BIN0001"), ("ext", "png"), ("inline", "true")] (.node (.text (lit "AQID")) .nil .nil) .nil) .nil) .nil) .nil) .nil)
    (el "PictureInfo" [("bindata-id", "1")] .nil .nil) = some (lit "data:;base64,AQID") ∧
  odtImage (el "HwpDoc" [] (el "DocInfo" [] (el "IdMappings" [] (el "BinData" [("storage", "embedding")]
      (el "BinDataEmbedding" [("storage-id", "BIN0001"), ("ext", "png"), ("inline", "true")] (.node (.text (lit "AQID")) .nil .nil) .nil) .nil) .nil) .nil) .nil)
    (el "PictureInfo" [("bindata-id", "1")] .nil .nil) = ⟨none, [lit "AQID"]⟩ := by decide +kernel

/-- The files: a page, and the picture it refers to. -/
example : (fun o => (o.1, (pathSegments [lit "r"] (lit "bindata/BIN001A.png"), o.2 (pathSegments [lit "r"] (lit "bindata/BIN001A.png")))))
    (htmlMain htmlSample [] (lit "r/r.hwp") none (.ok ⟨([9], none), some (.cons (lit "BIN001A.png") (.stream [5, 6]) .nil)⟩) htmlFS) =
    (0, [lit "r", lit "bindata", lit "BIN001A.png"], some (.file [5, 6])) := by decide +kernel

end Hwp.Props
