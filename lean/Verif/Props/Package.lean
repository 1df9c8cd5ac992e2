/- C87: the ODT package. -/
import Verif.Proofs.Package
set_option autoImplicit false
set_option linter.unusedSimpArgs false
set_option linter.unusedVariables false
namespace Hwp.Props
open Hwp Spec

/-- C87: the package of a document that can be read and transformed has the files of an ODT document with the
contents given, the pictures under their names, and a manifest that lists them all with their media types.
Missing: names of pictures with characters that XML does not allow (C87_control_name). -/
theorem C87_package_partial (xsl : OdtXsl) (xml styles content : Bytes) (hs : xsl.styles xml = .ok styles)
    (hc : xsl.content xml = .ok content) (bindata : Option (List (PyStr × Bytes))) (h : ∀ x ∈ bindata.getD [], XmlName x.1) :
    ∃ manifest, odtMain xsl (.ok ⟨(xml, none), bindata.map fun ps => ps.map fun x => (x.1, .stream (.ok x.2))⟩) =
        (0, some ((odtParts styles content (bindata.getD [])).map (fun x => (x.1, x.2.2)) ++
          [(lit "META-INF/manifest.xml", manifest), (lit "mimetype", odtMediaType.map UInt8.ofNat)])) ∧
      manifestOf manifest = some ((lit "/", odtMediaType) :: (odtParts styles content (bindata.getD [])).map fun x => (x.1, x.2.1)) :=
  odtMain_ok xsl xml styles content hs hc bindata h

/-- C87: no two files of the package have the same name, and every file but the manifest and the media type
is listed in the manifest exactly once. -/
theorem C87_listed_once_partial (xsl : OdtXsl) (xml styles content : Bytes) (hs : xsl.styles xml = .ok styles)
    (hc : xsl.content xml = .ok content) (bindata : Option (List (PyStr × Bytes))) (h : ∀ x ∈ bindata.getD [], XmlName x.1)
    (hd : ((bindata.getD []).map (·.1)).Nodup) :
    ∃ zip manifest entries, odtMain xsl (.ok ⟨(xml, none), bindata.map fun ps => ps.map fun x => (x.1, .stream (.ok x.2))⟩) = (0, some zip) ∧
      (zip.map (·.1)).Nodup ∧ (lit "META-INF/manifest.xml", manifest) ∈ zip ∧ manifestOf manifest = some entries ∧ (entries.map (·.1)).Nodup ∧
      ∀ path, path ∈ entries.map (·.1) ↔
        path = lit "/" ∨ (path ∈ zip.map (·.1) ∧ path ≠ lit "META-INF/manifest.xml" ∧ path ≠ lit "mimetype") := by
  obtain ⟨m, h1, h2⟩ := odtMain_ok xsl xml styles content hs hc bindata h
  have hn := names_distinct styles content m (odtMediaType.map UInt8.ofNat) (bindata.getD []) hd
  refine ⟨_, m, _, h1, hn, by simp, h2, ?_, ?_⟩
  · simp only [List.map_cons, List.map_map, List.nodup_cons]
    simp only [List.map_append, List.map_map, List.nodup_append, Function.comp_def] at hn
    refine ⟨?_, hn.1⟩
    intro hm
    simp only [odtParts, List.map_append, List.map_cons, List.map_nil, List.map_map, List.mem_append, List.mem_cons,
      List.not_mem_nil, or_false, List.mem_map, Function.comp_apply] at hm
    rcases hm with (hm | hm | hm) | ⟨x, -, hx⟩
    · exact absurd hm (by decide +kernel)
    · exact absurd hm (by decide +kernel)
    · exact absurd hm (by decide +kernel)
    · have := congrArg List.length hx
      simp [lit] at this
  · intro path
    simp only [List.map_append, List.map_map, List.nodup_append, Function.comp_def] at hn
    have hne := hn.2.2
    simp only [List.map_cons, List.map_nil, List.mem_cons, List.not_mem_nil, or_false] at hne
    simp only [List.map_append, List.map_cons, List.map_nil, List.map_map, List.mem_cons, List.mem_append,
      List.not_mem_nil, or_false, Function.comp_def]
    constructor
    · rintro (h3 | h3)
      · exact Or.inl h3
      · exact Or.inr ⟨Or.inl h3, hne _ h3 _ (Or.inl rfl), hne _ h3 _ (Or.inr rfl)⟩
    · rintro (h3 | ⟨h3 | h3 | h3, h4, h5⟩)
      · exact Or.inl h3
      · exact Or.inr h3
      · exact absurd h3 h4
      · exact absurd h3 h5

/-- Transformations that copy. -/
def sampleXsl : OdtXsl := ⟨fun b => .ok (b ++ [1]), fun b => .ok (b ++ [2])⟩

/-- What the manifest of a package lists. -/
def listedIn (zip : List (PyStr × Bytes)) : Option (List (PyStr × PyStr)) :=
  (zip.lookup (lit "META-INF/manifest.xml")).bind manifestOf

set_option synthInstance.maxSize 1000 in
set_option synthInstance.maxHeartbeats 200000 in
example : ((odtMain sampleXsl (.ok ⟨([9], none), some [(lit "BIN0001.png", .stream (.ok [7, 8])), (lit "a\"<&'\n.x", .stream (.ok []))]⟩)).2.map fun zip =>
    (zip.map (·.1), zip.lookup (lit "content.xml"), zip.lookup (lit "bindata/BIN0001.png"), listedIn zip)) =
    some ([lit "styles.xml", lit "content.xml", lit "manifest.rdf", lit "bindata/BIN0001.png", lit "bindata/a\"<&'\n.x", lit "META-INF/manifest.xml", lit "mimetype"],
      some [9, 2], some [7, 8], some [(lit "/", odtMediaType), (lit "styles.xml", lit "text/xml"), (lit "content.xml", lit "text/xml"),
        (lit "manifest.rdf", lit "application/rdf+xml"), (lit "bindata/BIN0001.png", lit "application/octet-stream"),
        (lit "bindata/a\"<&'\n.x", lit "application/octet-stream")]) := by decide +kernel

/-- C87 is violated: the file `mimetype` must be the first of the package (ODF 1.2 part 3, 3.3), and it is always
the last of several. -/
theorem C87_mimetype_last (xsl : OdtXsl) (d : OdtInput) (zip : List (PyStr × Bytes)) (h : (odtMain xsl (.ok d)).2 = some zip) :
    ∃ first others, zip = first :: others ∧ first.1 ≠ lit "mimetype" ∧
      zip.getLast? = some (lit "mimetype", odtMediaType.map UInt8.ofNat) := by
  unfold odtMain at h
  simp only [close_ok] at h
  simp only [Option.some.injEq] at h
  have hfirst : ∀ (p : OdtPackage), (∀ x, p.zip.head? = some x → x.1 ≠ lit "mimetype") →
      ∀ q : List (PyStr × Bytes), q = p.zip ++ [(lit "META-INF/manifest.xml", utf8CharRef (manifestText p.files)),
        (lit "mimetype", asciiBytes "application/vnd.oasis.opendocument.text")] →
      ∃ first others, q = first :: others ∧ first.1 ≠ lit "mimetype" ∧ q.getLast? = some (lit "mimetype", odtMediaType.map UInt8.ofNat) := by
    intro p hp q hq
    have hl : q.getLast? = some (lit "mimetype", odtMediaType.map UInt8.ofNat) := by
      rw [hq, List.getLast?_append]
      simp only [List.getLast?_cons_cons, List.getLast?_singleton, Option.some_or]
      decide +kernel
    cases hz : p.zip with
    | nil => rw [hz] at hq; exact ⟨_, _, hq, (by show lit "META-INF/manifest.xml" ≠ lit "mimetype"; decide +kernel), hl⟩
    | cons a as => rw [hz] at hq hp; exact ⟨_, _, hq, hp a rfl, hl⟩
  refine hfirst _ ?_ _ h.symm
  -- the first file inserted is styles.xml
  have key : ∀ (p : OdtPackage) (r : Except PyErr Bytes) (path mt : PyStr), path.takeWhile (· ≠ 0) ≠ lit "mimetype" →
      (∀ x, p.zip.head? = some x → x.1 ≠ lit "mimetype") → ∀ x, (p.insert r path mt).1.zip.head? = some x → x.1 ≠ lit "mimetype" := by
    intro p r path mt hpath hp x hx
    unfold OdtPackage.insert at hx
    split at hx
    · exact hp x hx
    · split at hx
      · exact hp x hx
      · rename_i zip hw
        unfold writestr at hw
        dsimp only at hw
        split at hw
        · cases hw
          cases hz : p.zip with
          | nil => rw [hz] at hx; simp only [List.nil_append, List.head?_cons, Option.some.injEq] at hx; rw [← hx]; exact hpath
          | cons a as => rw [hz] at hx hp; simp at hx; subst hx; exact hp a rfl
        · cases hw
  have kthen : ∀ (r : OdtPackage × Option PyErr) (k : OdtPackage → OdtPackage × Option PyErr),
      (∀ x, r.1.zip.head? = some x → x.1 ≠ lit "mimetype") →
      (∀ p : OdtPackage, (∀ x, p.zip.head? = some x → x.1 ≠ lit "mimetype") → ∀ x, (k p).1.zip.head? = some x → x.1 ≠ lit "mimetype") →
      ∀ x, (andThen r k).1.zip.head? = some x → x.1 ≠ lit "mimetype" := by
    intro r k hr hk
    unfold andThen
    split
    · exact hk _ hr
    · exact hr
  have kitems : ∀ (items : List (PyStr × BinItem)) (p : OdtPackage), (∀ x, p.zip.head? = some x → x.1 ≠ lit "mimetype") →
      ∀ x, (insertBinData items p).1.zip.head? = some x → x.1 ≠ lit "mimetype" := by
    intro items
    induction items with
    | nil => intro p hp; exact hp
    | cons i is ih =>
      intro p hp
      obtain ⟨n, i⟩ := i
      cases i with
      | storage => exact hp
      | stream data =>
        simp only [insertBinData]
        refine kthen _ _ (key _ _ _ _ ?_ hp) (fun p hp => ih p hp)
        intro he
        have hb : (lit "bindata/" ++ n).takeWhile (· ≠ 0) = lit "bindata/" ++ n.takeWhile (· ≠ 0) := by
          rw [List.takeWhile_append_of_pos]
          decide +kernel
        rw [hb] at he
        have := congrArg (List.isPrefixOf (lit "bindata/")) he
        rw [List.isPrefixOf_iff_prefix.2 (List.prefix_append _ _)] at this
        exact absurd this.symm (by decide +kernel)
  unfold toPackage
  split
  · intro x hx; cases hx
  · refine kthen _ _ ?_ ?_
    · unfold intoPackage
      refine kthen _ _ (key _ _ _ _ (by decide +kernel) (by intro x hx; cases hx)) fun p hp => ?_
      refine kthen _ _ (key _ _ _ _ (by decide +kernel) hp) fun p hp => ?_
      exact key _ _ _ _ (by decide +kernel) hp
    · intro p hp
      split
      · exact hp
      · exact kitems _ p hp

/-- C87 is violated: a stream of `BinData` may have a name with a control character; the manifest is then
not well-formed, although the conversion succeeds. -/
theorem C87_control_name : ∃ zip, odtMain sampleXsl (.ok ⟨([9], none), some [([5, 0x41], .stream (.ok [1]))]⟩) = (0, some zip) ∧
    (zip.map (·.1)).Nodup ∧ listedIn zip = none := by
  refine ⟨_, rfl, ?_⟩
  decide +kernel

/-- C87 is violated: a storage inside `BinData` ends the conversion with an exception.  The streams after it are
missing in the package that is left. -/
theorem C87_substorage (xsl : OdtXsl) (xml styles content : Bytes) (hs : xsl.styles xml = .ok styles)
    (hc : xsl.content xml = .ok content) (before : List (PyStr × Bytes)) (h : ∀ x ∈ before, XmlName x.1)
    (name : PyStr) (after : List (PyStr × BinItem)) :
    ∃ manifest, odtMain xsl (.ok ⟨(xml, none), some ((before.map fun x => (x.1, .stream (.ok x.2))) ++ (name, .storage) :: after)⟩) =
      (1, some ((odtParts styles content before).map (fun x => (x.1, x.2.2)) ++
          [(lit "META-INF/manifest.xml", manifest), (lit "mimetype", odtMediaType.map UInt8.ofNat)])) := by
  have hb := toPackage_ok xsl xml styles content hs hc (some before) h
  have key : ∀ (ps : List (PyStr × Bytes)) (p : OdtPackage), (insertBinData (ps.map fun x => (x.1, .stream (.ok x.2))) p).2 = none →
      insertBinData ((ps.map fun x => (x.1, .stream (.ok x.2))) ++ (name, .storage) :: after) p =
        ((insertBinData (ps.map fun x => (x.1, .stream (.ok x.2))) p).1, some .attributeError) := by
    intro ps
    induction ps with
    | nil => intro p _; rfl
    | cons x xs ih =>
      intro p hp
      simp only [List.map_cons, List.cons_append, insertBinData] at hp ⊢
      unfold andThen at hp ⊢
      split at hp
      · exact ih _ hp
      · simp at hp
  have h2 : toPackage xsl (xml, none) (some ((before.map fun x => (x.1, .stream (.ok x.2))) ++ (name, .storage) :: after)) ⟨[], []⟩ =
      ((toPackage xsl (xml, none) (some (before.map fun x => (x.1, .stream (.ok x.2)))) ⟨[], []⟩).1, some .attributeError) := by
    simp only [Option.map_some] at hb
    unfold toPackage at hb ⊢
    dsimp only at hb ⊢
    unfold andThen at hb ⊢
    split at hb
    · rename_i hi
      simp only [hi]
      exact key before _ (congrArg Prod.snd hb)
    · cases hb
  refine ⟨utf8CharRef (manifestText ((odtParts styles content before).map fun x => (x.1, x.2.1))), ?_⟩
  unfold odtMain
  simp only [Option.map_some, Option.getD_some] at hb
  simp only [h2, hb, close_ok, exitStatus]
  rw [show asciiBytes "application/vnd.oasis.opendocument.text" = odtMediaType.map UInt8.ofNat by decide +kernel]

/-- C87 is violated: if the document cannot be read, the destination is a package without content; if the reason
is a `ParseError`, the exit status is 0 all the same. -/
theorem C87_unreadable (xsl : OdtXsl) (xml : Bytes) (e : PyErr) (bindata : Option (List (PyStr × BinItem))) :
    ∃ manifest, odtMain xsl (.ok ⟨(xml, some e), bindata⟩) = (if e = .parseError then 0 else 1,
        some [(lit "META-INF/manifest.xml", manifest), (lit "mimetype", odtMediaType.map UInt8.ofNat)]) ∧
      manifestOf manifest = some [(lit "/", odtMediaType)] := by
  refine ⟨_, ?_, manifest_parses [] (by simp)⟩
  unfold odtMain toPackage
  simp only [close_ok, List.nil_append]
  rw [show asciiBytes "application/vnd.oasis.opendocument.text" = odtMediaType.map UInt8.ofNat by decide +kernel]
  cases e <;> rfl

/-- C87: a file that is not a HWP document leaves no destination, and the exit status says so. -/
theorem C87_not_a_document (xsl : OdtXsl) : odtMain xsl (.error .invalidHwp5File) = (1, none) := rfl

example : (odtMain sampleXsl (.ok ⟨([9], some .parseError), none⟩)).1 = 0 := rfl
example : (odtMain ⟨fun _ => .error .exception, fun b => .ok b⟩ (.ok ⟨([9], none), none⟩)).1 = 1 := by decide +kernel
example : (odtMain sampleXsl (.ok ⟨([9], none), some [(lit "A", .stream (.error .valueError))]⟩)).1 = 1 := by decide +kernel

end Hwp.Props
