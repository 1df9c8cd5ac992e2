/- Proofs about the ODT package. -/
import Verif.Model.Package
import Verif.Spec.Package
import Verif.Proofs.Utf8
set_option autoImplicit false
set_option linter.unusedSimpArgs false
set_option linter.unusedVariables false
namespace Hwp
open Spec

theorem saxEscape_sax (s : PyStr) : saxEscape saxEntities s = saxEscape xmlEntities s := by
  rw [saxEscape_attr]
  simp only [saxEscape, dictReplace, saxEntities, List.foldl_nil, List.foldl_cons]
  rw [replaceChar_eq 0x26]
  simp only [replaceChar_flatMap]
  congr 1
  funext x
  unfold escA
  by_cases h1 : x = 0x26
  · subst h1; decide
  by_cases h2 : x = 0x3E
  · subst h2; decide
  by_cases h3 : x = 0x3C
  · subst h3; decide
  by_cases h4 : x = 0x0D
  · subst h4; decide
  by_cases h5 : x = 0x0A
  · subst h5; decide
  by_cases h6 : x = 0x09
  · subst h6; decide
  simp [h1, h2, h3, h4, h5, h6, replaceChar]

theorem noNul_id (v : PyStr) (h : 0 ∉ v) : noNul v = v := by
  unfold noNul
  rw [List.filter_eq_self]
  intro c hc
  simp only [decide_eq_true_eq]
  rintro rfl
  exact h hc

theorem sax_quote (v : PyStr) (h : 0 ∉ v) : quoteattr saxEntities v = replaceChar 0 [] (quoteattr xmlEntities v) := by
  rw [attr_serialised, noNul_id v h]
  unfold quoteattr attrQuote
  simp only [saxEscape_sax, saxEscape_attr, mem_escA_iff v _ (Or.inl rfl), mem_escA_iff v _ (Or.inr rfl)]
  by_cases h1 : 0x22 ∈ v
  · by_cases h2 : 0x27 ∈ v
    · simp only [if_pos h1, if_pos h2]
      rw [replace_quote]
    · simp only [if_pos h1, if_neg h2]
  · simp only [if_neg h1]

theorem saxAttrs_text (as : List (PyStr × PyStr)) (h : ∀ a ∈ as, 0 ∉ a.2) : saxAttrs as = attrsText as := by
  induction as with
  | nil => rfl
  | cons a as ih =>
    have h1 := ih (fun x hx => h x (List.mem_cons_of_mem _ hx))
    unfold saxAttrs attrsText at *
    rw [List.flatMap_cons, List.flatMap_cons, List.flatten_append, h1, sax_quote _ (h a (List.mem_cons_self))]
    simp [attrChunks]

/-- The events of a manifest. -/
def manifestEvents (files : List (PyStr × PyStr)) : List XEv :=
  [.start (lit "manifest:manifest") [(lit "xmlns:manifest", lit "urn:oasis:names:tc:opendocument:xmlns:manifest:1.0"), (lit "manifest:version", lit "1.2")],
   .start (lit "manifest:file-entry") [(lit "manifest:media-type", odtMediaType), (lit "manifest:full-path", lit "/"), (lit "manifest:version", lit "1.2")],
   .stop (lit "manifest:file-entry")] ++
  files.flatMap (fun e => [.start (lit "manifest:file-entry") [(lit "manifest:media-type", e.2), (lit "manifest:full-path", e.1)],
    .stop (lit "manifest:file-entry")]) ++
  [.stop (lit "manifest:manifest")]

theorem xmlText_append (a b : List XEv) : xmlText (a ++ b) = xmlText a ++ xmlText b := by
  simp [xmlText, xmlTextChunks]

theorem fileEntry_text (path mediaType : PyStr) (h1 : 0 ∉ path) (h2 : 0 ∉ mediaType) :
    fileEntry path mediaType [] = xmlText [.start (lit "manifest:file-entry") [(lit "manifest:media-type", mediaType),
      (lit "manifest:full-path", path)], .stop (lit "manifest:file-entry")] := by
  have e1 : lit "<manifest:file-entry" = [0x3C] ++ lit "manifest:file-entry" := by decide +kernel
  have e2 : lit ">" = [0x3E] := by decide
  have e3 : lit "</manifest:file-entry>" = [0x3C, 0x2F] ++ lit "manifest:file-entry" ++ [0x3E] := by decide +kernel
  unfold fileEntry
  rw [saxAttrs_text _ (by simp [h1, h2]), xmlText_cons, xmlText_cons, chunks_start, chunks_stop, e1, e2, e3]
  simp [xmlText, xmlTextChunks]

theorem manifest_text (files : List (PyStr × PyStr)) (h : ∀ f ∈ files, 0 ∉ f.1 ∧ 0 ∉ f.2) :
    manifestText files = utf8Declaration ++ xmlText (manifestEvents files) := by
  unfold manifestText manifestEvents
  rw [xmlText_append, xmlText_append]
  have h1 : xmlText (files.flatMap (fun e => [.start (lit "manifest:file-entry") [(lit "manifest:media-type", e.2),
      (lit "manifest:full-path", e.1)], .stop (lit "manifest:file-entry")])) = files.flatMap (fun e => fileEntry e.1 e.2 []) := by
    induction files with
    | nil => rfl
    | cons f files ih =>
      rw [List.flatMap_cons, xmlText_append, List.flatMap_cons, ih (fun x hx => h x (List.mem_cons_of_mem _ hx)),
        fileEntry_text _ _ (h f (List.mem_cons_self)).1 (h f (List.mem_cons_self)).2]
  rw [h1]
  have h2 : lit "<?xml version=\"1.0\" encoding=\"utf-8\"?>\n" ++
      lit "<manifest:manifest" ++ lit " xmlns:manifest=\"urn:oasis:names:tc:opendocument:xmlns:manifest:1.0\"" ++
      saxAttrs [(lit "manifest:version", lit "1.2")] ++ lit ">" ++
      fileEntry (lit "/") (lit "application/vnd.oasis.opendocument.text") [(lit "manifest:version", lit "1.2")] =
      utf8Declaration ++ xmlText [.start (lit "manifest:manifest") [(lit "xmlns:manifest", lit "urn:oasis:names:tc:opendocument:xmlns:manifest:1.0"), (lit "manifest:version", lit "1.2")],
       .start (lit "manifest:file-entry") [(lit "manifest:media-type", odtMediaType), (lit "manifest:full-path", lit "/"), (lit "manifest:version", lit "1.2")],
       .stop (lit "manifest:file-entry")] := by decide +kernel
  have h3 : lit "</manifest:manifest>" = xmlText [.stop (lit "manifest:manifest")] := by decide +kernel
  rw [h2, h3]
  simp only [List.append_assoc]

instance (n : PyStr) : Decidable (ValidName n) := by
  cases n with
  | nil => exact inferInstanceAs (Decidable False)
  | cons c s => exact inferInstanceAs (Decidable (_ ∧ _))

theorem xmlName_writable {s : PyStr} (h : XmlName s) : Writable s := fun c hc => Or.inl (h c hc)

theorem manifest_ok (files : List (PyStr × PyStr)) (h : ∀ f ∈ files, XmlName f.1 ∧ XmlName f.2) :
    (∀ e ∈ manifestEvents files, EvOk e) ∧ OneRoot (manifestEvents files) := by
  have v1 : ValidName (lit "manifest:manifest") := by decide +kernel
  have v2 : ValidName (lit "manifest:file-entry") := by decide +kernel
  have v3 : ValidName (lit "manifest:media-type") := by decide +kernel
  have v4 : ValidName (lit "manifest:full-path") := by decide +kernel
  have v5 : ValidName (lit "manifest:version") := by decide +kernel
  have v6 : ValidName (lit "xmlns:manifest") := by decide +kernel
  have w1 : Writable (lit "urn:oasis:names:tc:opendocument:xmlns:manifest:1.0") := xmlName_writable (by unfold XmlName; decide +kernel)
  have w2 : Writable (lit "1.2") := xmlName_writable (by unfold XmlName; decide +kernel)
  have w3 : Writable odtMediaType := xmlName_writable (by unfold XmlName; decide +kernel)
  have w4 : Writable (lit "/") := xmlName_writable (by unfold XmlName; decide +kernel)
  constructor
  · intro e he
    simp only [manifestEvents, List.mem_append, List.mem_cons, List.not_mem_nil, or_false, List.mem_flatMap] at he
    rcases he with ((rfl | rfl | rfl) | ⟨f, hf, rfl | rfl⟩) | rfl
    · refine ⟨v1, by decide +kernel, ?_⟩
      simp only [List.mem_cons, List.not_mem_nil, or_false]
      rintro a (rfl | rfl)
      · exact ⟨v6, w1⟩
      · exact ⟨v5, w2⟩
    · refine ⟨v2, by decide +kernel, ?_⟩
      simp only [List.mem_cons, List.not_mem_nil, or_false]
      rintro a (rfl | rfl | rfl)
      · exact ⟨v3, w3⟩
      · exact ⟨v4, w4⟩
      · exact ⟨v5, w2⟩
    · exact v2
    · refine ⟨v2, ?_, ?_⟩
      · simp only [List.map_cons, List.map_nil]; decide +kernel
      simp only [List.mem_cons, List.not_mem_nil, or_false]
      rintro a (rfl | rfl)
      · exact ⟨v3, xmlName_writable (h f hf).2⟩
      · exact ⟨v4, xmlName_writable (h f hf).1⟩
    · exact v2
    · exact v1
  · have : ∀ fs : List (PyStr × PyStr), Inside [lit "manifest:manifest"] (fs.flatMap (fun e => [.start (lit "manifest:file-entry")
        [(lit "manifest:media-type", e.2), (lit "manifest:full-path", e.1)], .stop (lit "manifest:file-entry")]) ++ [.stop (lit "manifest:manifest")]) := by
      intro fs
      induction fs with
      | nil => exact ⟨rfl, rfl⟩
      | cons f fs ih => exact ⟨rfl, ih⟩
    exact ⟨rfl, this files⟩

theorem manifest_joined (files : List (PyStr × PyStr)) (h : ∀ f ∈ files, 0 ∉ f.1 ∧ 0 ∉ f.2) :
    joined (manifestEvents files) = manifestEvents files := by
  unfold manifestEvents
  have n1 : noNul (lit "urn:oasis:names:tc:opendocument:xmlns:manifest:1.0") = lit "urn:oasis:names:tc:opendocument:xmlns:manifest:1.0" := by decide +kernel
  have n2 : noNul (lit "1.2") = lit "1.2" := by decide +kernel
  have n3 : noNul odtMediaType = odtMediaType := by decide +kernel
  have n4 : noNul (lit "/") = lit "/" := by decide +kernel
  simp only [List.cons_append, List.nil_append, joined, List.map_cons, List.map_nil, n1, n2, n3, n4]
  congr 3
  induction files with
  | nil => rfl
  | cons f files ih =>
    simp only [List.flatMap_cons, List.cons_append, List.nil_append, joined, List.map_cons, List.map_nil,
      ih (fun x hx => h x (List.mem_cons_of_mem _ hx)), noNul_id _ (h f (List.mem_cons_self)).1, noNul_id _ (h f (List.mem_cons_self)).2]

theorem manifest_entries (files : List (PyStr × PyStr)) :
    manifestEntries (manifestEvents files) = some ((lit "/", odtMediaType) :: files) := by
  have h : ∀ fs : List (PyStr × PyStr), entriesIn (fs.flatMap (fun e => [.start (lit "manifest:file-entry")
        [(lit "manifest:media-type", e.2), (lit "manifest:full-path", e.1)], .stop (lit "manifest:file-entry")]) ++ [.stop (lit "manifest:manifest")]) = some fs := by
    intro fs
    induction fs with
    | nil => decide +kernel
    | cons f fs ih =>
      simp only [List.flatMap_cons, List.cons_append, List.nil_append]
      rw [entriesIn, if_pos rfl]
      have h1 : [(lit "manifest:media-type", f.2), (lit "manifest:full-path", f.1)].lookup (lit "manifest:full-path") = some f.1 := by
        simp only [List.lookup_cons, show (lit "manifest:full-path" == lit "manifest:media-type") = false by decide +kernel, beq_self_eq_true]
      have h2 : [(lit "manifest:media-type", f.2), (lit "manifest:full-path", f.1)].lookup (lit "manifest:media-type") = some f.2 := by
        simp only [List.lookup_cons, beq_self_eq_true]
      rw [h1, h2]
      simp only [ih, Option.map_some]
  unfold manifestEvents manifestEntries
  simp only [List.cons_append, List.nil_append]
  rw [if_pos (by decide +kernel), entriesIn, if_pos rfl]
  have h1 : [(lit "manifest:media-type", odtMediaType), (lit "manifest:full-path", lit "/"), (lit "manifest:version", lit "1.2")].lookup (lit "manifest:full-path") = some (lit "/") := by decide +kernel
  have h2 : [(lit "manifest:media-type", odtMediaType), (lit "manifest:full-path", lit "/"), (lit "manifest:version", lit "1.2")].lookup (lit "manifest:media-type") = some odtMediaType := by decide +kernel
  rw [h1, h2]
  simp only [h files, Option.map_some]

theorem charRef_encode (s : PyStr) (h : ∀ c ∈ s, Scalar c) : utf8Encode s = .ok (utf8CharRef s) := by
  induction s with
  | nil => rfl
  | cons c s ih =>
    obtain ⟨b, hb⟩ := (utf8Char_ok c).2 (h c (List.mem_cons_self))
    simp only [utf8Encode, utf8CharRef, List.flatMap_cons, bind, Except.bind, pure, Except.pure, hb]
    rw [ih (fun x hx => h x (List.mem_cons_of_mem _ hx))]
    rfl

theorem xmlName_noNul {s : PyStr} (h : XmlName s) : 0 ∉ s := fun hc => absurd (h 0 hc) (by decide)

theorem manifest_parses (files : List (PyStr × PyStr)) (h : ∀ f ∈ files, XmlName f.1 ∧ XmlName f.2) :
    manifestOf (utf8CharRef (manifestText files)) = some ((lit "/", odtMediaType) :: files) := by
  have h0 : ∀ f ∈ files, 0 ∉ f.1 ∧ 0 ∉ f.2 := fun f hf => ⟨xmlName_noNul (h f hf).1, xmlName_noNul (h f hf).2⟩
  obtain ⟨h1, h2⟩ := manifest_ok files h
  have h3 := manifest_text files h0
  have hs : ∀ c ∈ manifestText files, Scalar c := by
    rw [h3]
    exact (scalar_all true _).2 (fun e he => evOk_encodable e (h1 e he))
  have h4 := decode_encode _ _ (charRef_encode _ hs)
  rw [h3] at h4
  have h5 := parseFile_text true _ h1 h2 (utf8CharRef (manifestText files)) (by rw [h3]; exact h4)
  unfold manifestOf
  rw [h5, manifest_joined _ h0]
  exact manifest_entries files

/-! ### The archive -/

theorem takeWhile_noNul (s : PyStr) (h : 0 ∉ s) : s.takeWhile (· ≠ 0) = s := by
  induction s with
  | nil => rfl
  | cons c s ih =>
    simp only [List.mem_cons, not_or] at h
    rw [List.takeWhile_cons_of_pos (by simpa using fun e => h.1 e.symm), ih h.2]

theorem writestr_ok (zip : List (PyStr × Bytes)) (path : PyStr) (data : Bytes) (h : XmlName path) :
    writestr zip path data = .ok (zip ++ [(path, data)]) := by
  unfold writestr
  rw [takeWhile_noNul path (xmlName_noNul h)]
  obtain ⟨b, hb⟩ := (utf8Encode_ok path).2 (fun c hc => xmlChar_scalar (h c hc))
  simp only [hb]

theorem insert_ok (p : OdtPackage) (data : Bytes) (path mediaType : PyStr) (h : XmlName path) :
    p.insert (.ok data) path mediaType = (⟨p.zip ++ [(path, data)], p.files ++ [(path, mediaType)]⟩, none) := by
  unfold OdtPackage.insert
  simp only [writestr_ok _ _ _ h]

theorem xmlName_lit_append {a b : PyStr} (ha : XmlName a) (hb : XmlName b) : XmlName (a ++ b) := by
  unfold XmlName at *
  rw [List.forall_mem_append]
  exact ⟨ha, hb⟩

theorem xmlName_bindata {n : PyStr} (h : XmlName n) : XmlName (lit "bindata/" ++ n) :=
  xmlName_lit_append (by unfold XmlName; decide +kernel) h

theorem insertBinData_ok (pictures : List (PyStr × Bytes)) (h : ∀ x ∈ pictures, XmlName x.1) (p : OdtPackage) :
    insertBinData (pictures.map fun x => (x.1, .stream (.ok x.2))) p =
      (⟨p.zip ++ pictures.map (fun x => (lit "bindata/" ++ x.1, x.2)),
        p.files ++ pictures.map (fun x => (lit "bindata/" ++ x.1, lit "application/octet-stream"))⟩, none) := by
  induction pictures generalizing p with
  | nil => simp [insertBinData]
  | cons x xs ih =>
    simp only [List.map_cons, insertBinData]
    rw [insert_ok _ _ _ _ (xmlName_bindata (h x (List.mem_cons_self)))]
    simp only [andThen]
    rw [ih (fun y hy => h y (List.mem_cons_of_mem _ hy))]
    simp

theorem rdf_eq : manifestRdf = pyManifestRdf.flatMap fun s => s.toList.map fun c => UInt8.ofNat c.toNat := rfl

theorem toPackage_ok (xsl : OdtXsl) (xml styles content : Bytes) (hs : xsl.styles xml = .ok styles) (hc : xsl.content xml = .ok content)
    (bindata : Option (List (PyStr × Bytes))) (h : ∀ x ∈ bindata.getD [], XmlName x.1) :
    toPackage xsl (xml, none) (bindata.map fun ps => ps.map fun x => (x.1, .stream (.ok x.2))) ⟨[], []⟩ =
      (⟨(odtParts styles content (bindata.getD [])).map (fun x => (x.1, x.2.2)),
        (odtParts styles content (bindata.getD [])).map (fun x => (x.1, x.2.1))⟩, none) := by
  have n1 : XmlName (lit "styles.xml") := by unfold XmlName; decide +kernel
  have n2 : XmlName (lit "content.xml") := by unfold XmlName; decide +kernel
  have n3 : XmlName (lit "manifest.rdf") := by unfold XmlName; decide +kernel
  unfold toPackage intoPackage
  simp only [hs, hc, insert_ok _ _ _ _ n1, insert_ok _ _ _ _ n2, insert_ok _ _ _ _ n3, andThen, rdf_eq]
  cases bindata with
  | none => simp [odtParts]
  | some ps =>
    simp only [Option.map_some, Option.getD_some] at h ⊢
    rw [insertBinData_ok ps h]
    simp [odtParts, Function.comp_def]

theorem close_ok (p : OdtPackage) :
    p.close = .ok (p.zip ++ [(lit "META-INF/manifest.xml", utf8CharRef (manifestText p.files)),
      (lit "mimetype", asciiBytes "application/vnd.oasis.opendocument.text")]) := by
  have n1 : XmlName (lit "META-INF/manifest.xml") := by unfold XmlName; decide +kernel
  have n2 : XmlName (lit "mimetype") := by unfold XmlName; decide +kernel
  unfold OdtPackage.close
  simp only [bind, Except.bind, writestr_ok _ _ _ n1, writestr_ok _ _ _ n2, List.append_assoc, List.cons_append, List.nil_append]

theorem parts_xml (styles content : Bytes) (pictures : List (PyStr × Bytes)) (h : ∀ x ∈ pictures, XmlName x.1) :
    ∀ f ∈ (odtParts styles content pictures).map (fun x => (x.1, x.2.1)), XmlName f.1 ∧ XmlName f.2 := by
  intro f hf
  simp only [odtParts, List.map_append, List.map_cons, List.map_nil, List.map_map, List.mem_append, List.mem_cons,
    List.not_mem_nil, or_false, List.mem_map, Function.comp_apply] at hf
  rcases hf with (rfl | rfl | rfl) | ⟨x, hx, rfl⟩
  · constructor <;> (unfold XmlName; decide +kernel)
  · constructor <;> (unfold XmlName; decide +kernel)
  · constructor <;> (unfold XmlName; decide +kernel)
  · have : XmlName (lit "application/octet-stream") := by unfold XmlName; decide +kernel
    exact ⟨xmlName_bindata (h x hx), this⟩

theorem odtMain_ok (xsl : OdtXsl) (xml styles content : Bytes) (hs : xsl.styles xml = .ok styles) (hc : xsl.content xml = .ok content)
    (bindata : Option (List (PyStr × Bytes))) (h : ∀ x ∈ bindata.getD [], XmlName x.1) :
    ∃ manifest, odtMain xsl (.ok ⟨(xml, none), bindata.map fun ps => ps.map fun x => (x.1, .stream (.ok x.2))⟩) =
        (0, some ((odtParts styles content (bindata.getD [])).map (fun x => (x.1, x.2.2)) ++
          [(lit "META-INF/manifest.xml", manifest), (lit "mimetype", odtMediaType.map UInt8.ofNat)])) ∧
      manifestOf manifest = some ((lit "/", odtMediaType) :: (odtParts styles content (bindata.getD [])).map fun x => (x.1, x.2.1)) := by
  refine ⟨_, ?_, manifest_parses _ (parts_xml styles content _ h)⟩
  unfold odtMain
  simp only [toPackage_ok xsl xml styles content hs hc bindata h, close_ok, exitStatus]
  rw [show asciiBytes "application/vnd.oasis.opendocument.text" = odtMediaType.map UInt8.ofNat by decide +kernel]

/-- Every file written is listed under the path given, whatever happens. -/
theorem names_distinct (styles content m t : Bytes) (pictures : List (PyStr × Bytes)) (h : (pictures.map (·.1)).Nodup) :
    (((odtParts styles content pictures).map (fun x => (x.1, x.2.2)) ++
      [(lit "META-INF/manifest.xml", m), (lit "mimetype", t)]).map (·.1)).Nodup := by
  have hp : ∀ (s n : PyStr), (lit "bindata/").isPrefixOf s = false → lit "bindata/" ++ n ≠ s := by
    intro s n hs he
    rw [← he] at hs
    rw [List.isPrefixOf_iff_prefix.2 (List.prefix_append _ _)] at hs
    cases hs
  have hd : ((pictures.map (·.1)).map (lit "bindata/" ++ ·)).Nodup := by
    rw [List.nodup_iff_pairwise_ne, List.pairwise_map]
    rw [List.nodup_iff_pairwise_ne] at h
    exact h.imp (fun hne he => hne (List.append_cancel_left he))
  have e : ((odtParts styles content pictures).map (fun x => (x.1, x.2.2)) ++
      [(lit "META-INF/manifest.xml", m), (lit "mimetype", t)]).map (·.1) =
      [lit "styles.xml", lit "content.xml", lit "manifest.rdf"] ++ ((pictures.map (·.1)).map (lit "bindata/" ++ ·) ++
        [lit "META-INF/manifest.xml", lit "mimetype"]) := by
    simp [odtParts, Function.comp_def]
  rw [e, List.nodup_append]
  refine ⟨by decide +kernel, ?_, ?_⟩
  · rw [List.nodup_append]
    refine ⟨hd, by decide +kernel, ?_⟩
    intro a ha b hb
    obtain ⟨n, -, rfl⟩ := List.mem_map.1 ha
    simp only [List.mem_cons, List.not_mem_nil, or_false] at hb
    rcases hb with rfl | rfl
    · exact hp _ _ (by decide +kernel)
    · exact hp _ _ (by decide +kernel)
  · intro a ha b hb
    simp only [List.mem_append, List.mem_map] at hb
    rcases hb with ⟨n, -, rfl⟩ | hb
    · simp only [List.mem_cons, List.not_mem_nil, or_false] at ha
      rcases ha with rfl | rfl | rfl
      · exact (hp _ _ (by decide +kernel)).symm
      · exact (hp _ _ (by decide +kernel)).symm
      · exact (hp _ _ (by decide +kernel)).symm
    · simp only [List.mem_cons, List.not_mem_nil, or_false] at ha hb
      rcases ha with rfl | rfl | rfl <;> rcases hb with rfl | rfl <;> decide +kernel

end Hwp
