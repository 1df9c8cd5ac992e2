import Verif.Proofs.Html
set_option autoImplicit false
set_option linter.unusedSimpArgs false
set_option linter.unusedVariables false
namespace Hwp.Props
open Hwp Spec

/-! ### C89: the directory written by hwp5html -/

/-- C89: for a document that can be read and transformed the destination is exactly the directory with the two
files and the embedded streams; nothing of a former directory is left in it, and nothing else is changed.
Missing: the names of embedded items that cannot be unpacked (C46, C88). -/
theorem C89_directory_partial (xsl : HtmlXsl) (xml xhtml css : Bytes) (hx : xsl.xhtml xml = (xhtml, none)) (hc : xsl.css xml = (css, none))
    (bindata : Option StgEntries) (hb : ∀ es, bindata = some es → Unpackable es) (cwd : List PyStr) (path : PyStr) (output : Option PyStr)
    (hdest : htmlDest path output ≠ []) (parent : List PyStr) (name : PyStr) (hp : pathSegments cwd (htmlDest path output) = parent ++ [name])
    (hplain : ∀ s ∈ parent ++ [name], 5 ∉ s ∧ PlainName s) (fs : FS) (hfs : ProperFS fs) (hdir : fs parent = some .dir)
    (hfile : ∀ d, fs (parent ++ [name]) ≠ some (.file d)) :
    ∃ fs', htmlMain xsl cwd path output (.ok ⟨(xml, none), bindata⟩) fs = (0, fs') ∧
      (∀ r, fs' (parent ++ [name] ++ r) = htmlNode xhtml css bindata r) ∧ ∀ r, ¬ parent ++ [name] <+: r → fs' r = fs r := by
  obtain ⟨fs1, h1, h2⟩ := openDir_ok fs parent name hfs hdir (fun s hs => (hplain s hs).2) hfile
  obtain ⟨fs2, g1, g2, g3⟩ := hwp5ToDir_ok xsl xml xhtml css hx hc bindata hb fs1 (parent ++ [name]) hplain (by
      intro q hq
      rw [h2]
      split
      · rfl
      · rename_i hne
        rw [if_neg, dirAt_of_proper hfs hdir]
        · rw [List.prefix_concat_iff] at hq
          exact hq.resolve_left hne
        · intro hc
          exact hne (List.IsPrefix.eq_of_length_le hq hc.length_le))
    (by
      intro n q
      rw [h2, if_neg (by simp), if_pos (List.prefix_append _ _)])
  refine ⟨fs2, ?_, g2, ?_⟩
  · unfold htmlMain
    simp only [hdest, if_false, hp, h1, andThen, g1, exitStatus]
  · intro r hr
    rw [g3 r hr, h2, if_neg (by rintro rfl; exact hr (List.prefix_refl _)), if_neg hr]

/-- C89: whatever happens, nothing outside of the destination is changed.  Missing: embedded items with the name '.'
or '..' (C88), destinations with such a segment (C89_current_directory). -/
theorem C89_only_below_partial (xsl : HtmlXsl) (cwd : List PyStr) (path : PyStr) (output : Option PyStr) (opened : Except PyErr HtmlInput)
    (hb : ∀ d es, opened = .ok d → d.bindata = some es → PlainEntries es) (fs : FS)
    (hplain : ∀ s ∈ pathSegments cwd (htmlDest path output), 5 ∉ s ∧ PlainName s) (r : List PyStr)
    (hr : ¬ pathSegments cwd (htmlDest path output) <+: r) : (htmlMain xsl cwd path output opened fs).2 r = fs r := by
  unfold htmlMain
  cases opened with
  | error e => rfl
  | ok d =>
    dsimp only
    split
    · rfl
    · exact ((onlyBelow_openDir _ (fun s hs => (hplain s hs).2)).andThen
        (onlyBelow_hwp5ToDir xsl d (fun es => hb d es rfl) _ hplain)) fs r hr

/-- C89: a file that is not a HWP document changes nothing, and the exit status says so. -/
theorem C89_not_a_document (xsl : HtmlXsl) (cwd : List PyStr) (path : PyStr) (output : Option PyStr) (fs : FS) :
    htmlMain xsl cwd path output (.error .invalidHwp5File) fs = (1, fs) := rfl

/-- C89: a file at the place of the destination is kept, and the exit status says so. -/
theorem C89_file_kept (xsl : HtmlXsl) (cwd : List PyStr) (path : PyStr) (output : Option PyStr) (d : HtmlInput) (fs : FS)
    (hfs : ProperFS fs) (parent : List PyStr) (name : PyStr) (hp : pathSegments cwd (htmlDest path output) = parent ++ [name])
    (hplain : ∀ s ∈ parent ++ [name], PlainName s) (data : Bytes) (h : fs (parent ++ [name]) = some (.file data)) :
    htmlMain xsl cwd path output (.ok d) fs = (1, fs) := by
  have hdir : DirAt fs parent := dirAt_of_proper hfs (hfs (parent ++ [name]) parent (by rw [h]; simp) (List.prefix_append _ _) (by simp))
  have hres := resolve_dir (fun s hs => hplain s (by simp [hs])) (hplain name (by simp)) hdir
  unfold htmlMain
  dsimp only
  split
  · rfl
  · unfold openDir pathExists rmtree
    simp only [hp, hres, h, Option.isSome_some, if_true, andThen]
    rfl

/-- C89 is violated: if the document cannot be read, the former contents of the destination are lost all the same; if
the reason is a `ParseError` the exit status is 0. -/
theorem C89_former_contents_lost (xsl : HtmlXsl) (cwd : List PyStr) (path : PyStr) (output : Option PyStr) (xml : Bytes) (e : PyErr)
    (bindata : Option StgEntries) (hdest : htmlDest path output ≠ []) (parent : List PyStr) (name : PyStr)
    (hp : pathSegments cwd (htmlDest path output) = parent ++ [name])
    (hplain : ∀ s ∈ parent ++ [name], PlainName s) (fs : FS) (hfs : ProperFS fs) (hdir : fs (parent ++ [name]) = some .dir) :
    ∃ fs', htmlMain xsl cwd path output (.ok ⟨(xml, some e), bindata⟩) fs = (if e = .parseError then 0 else 1, fs') ∧
      ∀ n r, fs' (parent ++ [name] ++ n :: r) = none := by
  have hpar := hfs (parent ++ [name]) parent (by rw [hdir]; simp) (List.prefix_append _ _) (by simp)
  obtain ⟨fs1, h1, h2⟩ := openDir_ok fs parent name hfs hpar hplain (by rw [hdir]; simp)
  refine ⟨fs1, ?_, ?_⟩
  · unfold htmlMain hwp5ToDir
    simp only [hdest, if_false, hp, h1, andThen]
    cases e <;> rfl
  · intro n r
    rw [h2, if_neg (by simp), if_pos (List.prefix_append _ _)]

/-- C89 is violated: everything in the destination directory is deleted, the document that is converted included:
`hwp5html report/report.hwp` removes `report/report.hwp`, and succeeds. -/
theorem C89_input_deleted (xsl : HtmlXsl) (xml xhtml css : Bytes) (hx : xsl.xhtml xml = (xhtml, none)) (hc : xsl.css xml = (css, none))
    (stem : PyStr) (h1 : OneSegment stem) (h5 : 5 ∉ stem) (hdot : ∃ c ∈ stem, c ≠ 0x2e) (fs : FS) (hfs : ProperFS fs)
    (data : Bytes) (hin : fs [stem, stem ++ lit ".hwp"] = some (.file data)) :
    ∃ fs', htmlMain xsl [] (stem ++ lit "/" ++ stem ++ lit ".hwp") none (.ok ⟨(xml, none), none⟩) fs = (0, fs') ∧
      fs' [stem, stem ++ lit ".hwp"] = none := by
  have hd : htmlDest (stem ++ lit "/" ++ stem ++ lit ".hwp") none = stem := by
    unfold htmlDest
    have hs : lit "/" = [slash] := by decide
    have hh : lit ".hwp" = 0x2e :: lit "hwp" := by decide
    dsimp only
    rw [List.append_assoc, basename_append _ _ (Or.inr (by rw [hs]; simp)), hh, splitext_parts stem _ hdot (by decide)]
    rw [List.mem_append, not_or]
    exact ⟨h1.2, by decide⟩
  have hseg : pathSegments [] (htmlDest (stem ++ lit "/" ++ stem ++ lit ".hwp") none) = [] ++ [stem] := by
    rw [hd]; exact pathSegments_name [] stem h1
  have hdir : fs ([] ++ [stem]) = some .dir := hfs [stem, stem ++ lit ".hwp"] [stem] (by rw [hin]; simp) ⟨[stem ++ lit ".hwp"], rfl⟩ (by simp)
  obtain ⟨fs', h, g, -⟩ := C89_directory_partial xsl xml xhtml css hx hc none (by simp) [] _ none (by rw [hd]; exact h1.1.1) [] stem hseg
    (by simp; exact ⟨h5, h1.1⟩) fs hfs (hfs _ [] (by rw [hin]; simp) (List.nil_prefix) (by simp)) (by rw [hdir]; simp)
  refine ⟨fs', h, ?_⟩
  have := g [stem ++ lit ".hwp"]
  rw [htmlNode] at this
  refine this.trans ?_
  have hne : ∀ t, (t.getLast? ≠ some 0x70) → stem ++ lit ".hwp" ≠ t := by
    rintro t ht rfl
    apply ht
    rw [List.getLast?_append]
    rfl
  rw [if_neg (hne _ (by decide)), if_neg (hne _ (by decide)), if_neg (hne _ (by decide))]

/-- C89 is violated: `--output=.` deletes everything in the current directory, and then fails. -/
theorem C89_current_directory (xsl : HtmlXsl) (cwd : List PyStr) (path : PyStr) (d : HtmlInput) (fs : FS)
    (hplain : ∀ s ∈ cwd, PlainName s) (hcwd : DirAt fs cwd) :
    ∃ fs', htmlMain xsl cwd path (some (lit ".")) (.ok d) fs = (1, fs') ∧ ∀ n r, fs' (cwd ++ n :: r) = none := by
  have hres : resolve fs (cwd ++ [[0x2e]]) = some cwd := by
    have key : ∀ (p dir : List PyStr), (∀ s ∈ p, PlainName s) → (∀ q, q <+: p → fs (dir ++ q) = some .dir) →
        resolveFrom fs dir (p ++ [[0x2e]]) = some (dir ++ p) := by
      intro p
      induction p with
      | nil =>
        intro dir _ hd
        have := hd [] (List.prefix_refl _)
        rw [List.append_nil] at this
        simp [resolveFrom, this]
      | cons s p ih =>
        intro dir hp hd
        have hs := hp s (by simp)
        have := hd [] (List.nil_prefix)
        rw [List.append_nil] at this
        rw [List.cons_append, resolveFrom, if_pos this, if_neg hs.2.2, if_neg (by rintro (h | h); exact hs.2.1 h; exact hs.1 h),
          ih _ (fun x hx => hp x (by simp [hx]))]
        · simp
        · intro q hq
          have := hd (s :: q) (by simpa using hq)
          simpa using this
    have := key cwd [] hplain (by simpa [DirAt] using hcwd)
    simpa [resolve] using this
  have hseg : pathSegments cwd (htmlDest path (some (lit "."))) = cwd ++ [[0x2e]] := by
    rw [show htmlDest path (some (lit ".")) = [0x2e] by unfold htmlDest; rfl]
    rfl
  refine ⟨fun r => if cwd <+: r ∧ r ≠ cwd then none else fs r, ?_, ?_⟩
  · unfold htmlMain openDir pathExists rmtree
    simp only [hseg, hres, hcwd cwd (List.prefix_refl _), Option.isSome_some, if_true, List.getLast?_append, List.getLast?_singleton,
      Option.some_or, true_or, andThen]
    rw [if_neg (by unfold htmlDest; exact List.cons_ne_nil _ _)]
    rfl
  · intro n r
    dsimp only
    rw [if_pos ⟨List.prefix_append _ _, by simp⟩]

/-- The root, a directory 'r' with a file 'r.hwp' and an old 'x', and a file 'f' beside it. -/
def htmlFS : FS := fun p =>
  if p = [] ∨ p = [lit "r"] then some .dir
  else if p = [lit "r", lit "r.hwp"] then some (.file [1])
  else if p = [lit "r", lit "x"] then some (.file [2])
  else if p = [lit "f"] then some (.file [3])
  else none

/-- Stylesheets that copy. -/
def htmlSample : HtmlXsl := ⟨fun x => (x ++ [7], none), fun x => (x ++ [8], none)⟩

theorem htmlFS_proper : ProperFS htmlFS := by
  intro p q hp hq hne
  have hlen : q.length < p.length := by
    have := hq.length_le
    rcases Nat.lt_or_eq_of_le this with h | h
    · exact h
    · exact absurd (hq.eq_of_length h) hne
  have : p ∈ [[], [lit "r"], [lit "r", lit "r.hwp"], [lit "r", lit "x"], [lit "f"]] := by
    unfold htmlFS at hp
    simp only [List.mem_cons, List.not_mem_nil, or_false]
    by_cases h1 : p = [] <;> by_cases h2 : p = [lit "r"] <;> by_cases h3 : p = [lit "r", lit "r.hwp"] <;>
      by_cases h4 : p = [lit "r", lit "x"] <;> by_cases h5 : p = [lit "f"] <;> simp_all
  have hq' : q = p.take q.length := (List.prefix_iff_eq_take.1 hq)
  have key : ∀ p ∈ [[], [lit "r"], [lit "r", lit "r.hwp"], [lit "r", lit "x"], [lit "f"]], ∀ n, n < p.length → htmlFS (p.take n) = some .dir := by
    decide +kernel
  rw [hq']
  exact key p this _ hlen

/-- The case of C89_directory_partial and C89_input_deleted: the new directory, the old files gone, the file beside kept. -/
example : (fun o => (o.1, [[lit "r"], [lit "r", lit "index.xhtml"], [lit "r", lit "styles.css"], [lit "r", lit "bindata"],
      [lit "r", lit "bindata", lit "B"], [lit "r", lit "x"], [lit "r", lit "r.hwp"], [lit "f"]].map o.2))
    (htmlMain htmlSample [] (lit "r/r.hwp") none (.ok ⟨([9], none), some (.cons (lit "B") (.stream [5]) .nil)⟩) htmlFS) =
    (0, [some .dir, some (.file [9, 7]), some (.file [9, 8]), some .dir, some (.file [5]), none, none, some (.file [3])]) := by
  decide +kernel
/-- The case of C89_former_contents_lost. -/
example : (fun o => (o.1, [[lit "r"], [lit "r", lit "x"], [lit "f"]].map o.2))
    (htmlMain htmlSample [] (lit "d/r.hwp") none (.ok ⟨([9], some .parseError), none⟩) htmlFS) = (0, [some .dir, none, some (.file [3])]) := by
  decide +kernel
/-- The cases of C89_file_kept and C89_current_directory. -/
example : (fun o => (o.1, [[lit "f"], [lit "r"]].map o.2)) (htmlMain htmlSample [] (lit "f.hwp") none (.ok ⟨([9], none), none⟩) htmlFS) =
    (1, [some (.file [3]), some .dir]) ∧
    (fun o => (o.1, [[], [lit "f"], [lit "r"]].map o.2)) (htmlMain htmlSample [] (lit "f.hwp") (some (lit ".")) (.ok ⟨([9], none), none⟩) htmlFS) =
    (1, [some .dir, none, none]) := by
  decide +kernel

/-! ### C90: the names of destinations -/

/-- C90: the destination without `--output` is in the current directory, under the name of the document without its
extension (`.odt` added by hwp5odt). -/
theorem C90_default_destination (p dir stem ext : PyStr) (h : PathParts p dir stem ext) (cwd : List PyStr) (hs : PlainName stem) :
    replaceExt p (lit ".odt") = stem ++ lit ".odt" ∧
    pathSegments cwd (htmlDest p none) = cwd ++ [stem] ∧
    ∀ es fs, unpackMain cwd p none es fs = unpackMain cwd p (some stem) es fs := by
  have hb : basename p = stem ++ 0x2e :: ext := by
    rw [h.eq, List.append_assoc]
    apply basename_append dir _ h.dir
    intro hm
    rcases List.mem_append.1 hm with h1 | h1
    · exact h.stem.1 h1
    · rcases List.mem_cons.1 h1 with h1 | h1
      · exact absurd h1 (by decide)
      · exact h.ext.1 h1
  have hsp : splitext (basename p) = (stem, 0x2e :: ext) := by rw [hb]; exact splitext_parts stem ext h.stem.2 h.ext.2
  refine ⟨by unfold replaceExt; rw [hsp], ?_, ?_⟩
  · unfold htmlDest
    dsimp only
    rw [hsp]
    exact pathSegments_name cwd stem ⟨hs, h.stem.1⟩
  · intro es fs
    unfold unpackMain
    rw [hsp]
    rfl

/-- C90: for any path of a file the destination is a name in the current directory, never '.' or '..' or a path. -/
theorem C90_one_segment (p : PyStr) (h : PlainName (basename p)) : OneSegment (htmlDest p none) ∧ OneSegment (replaceExt p (lit ".odt")) := by
  have h1 : OneSegment (splitext (basename p)).1 := ⟨splitext_plain h, fun hm => basename_no_slash p (splitext_mem hm)⟩
  refine ⟨h1, ?_, ?_⟩
  · unfold replaceExt
    refine ⟨?_, ?_, ?_⟩ <;> intro he <;> have := congrArg List.length he <;> rw [List.length_append] at this <;>
      have h4 : (lit ".odt").length = 4 := (by decide) <;> rw [h4] at this <;> simp at this
    all_goals omega
  · unfold replaceExt
    rw [List.mem_append, not_or]
    exact ⟨h1.2, by decide⟩

/-- C90: hwp5odt without `--output` names its input as destination exactly for a file in the current directory whose name
ends with `.odt` after other characters than dots. -/
theorem C90_odt_destination_is_input (p : PyStr) : replaceExt p (lit ".odt") = p ↔
    ∃ stem, p = stem ++ lit ".odt" ∧ slash ∉ stem ∧ ∃ c ∈ stem, c ≠ 0x2e := by
  have hh : lit ".odt" = 0x2e :: lit "odt" := by decide
  constructor
  · intro h
    unfold replaceExt at h
    have hns : slash ∉ p := by
      rw [← h, List.mem_append, not_or]
      exact ⟨fun hm => basename_no_slash p (splitext_mem hm), by decide⟩
    refine ⟨(splitext (basename p)).1, h.symm, fun hm => basename_no_slash p (splitext_mem hm), ?_⟩
    have hb : basename p = p := by
      have := basename_append [] p (Or.inl rfl) hns
      simpa using this
    rw [hb] at h ⊢
    rcases splitext_root p with h1 | ⟨h1, -⟩
    · rw [h1] at h
      have := congrArg List.length h
      rw [List.length_append] at this
      have h4 : (lit ".odt").length = 4 := by decide
      omega
    · exact h1
  · rintro ⟨stem, rfl, hs, hd⟩
    unfold replaceExt
    have := basename_append [] (stem ++ lit ".odt") (Or.inl rfl) (by
      rw [List.mem_append, not_or]
      exact ⟨hs, by decide⟩)
    rw [List.nil_append] at this
    rw [this, hh, splitext_parts stem _ hd (by decide)]

/-- C90 is violated: a document `a.odt` is overwritten by `hwp5odt a.odt`. -/
theorem C90_input_overwritten : replaceExt (lit "a.odt") (lit ".odt") = lit "a.odt" := by decide +kernel

example : PathParts (lit "d.e/a.b.hwp") (lit "d.e/") (lit "a.b") (lit "hwp") :=
  ⟨by decide, by decide, ⟨by decide, 0x61, by decide, by decide⟩, ⟨by decide, by decide⟩⟩
example : (replaceExt (lit "d.e/a.b.hwp") (lit ".odt"), htmlDest (lit "d.e/a") none, htmlDest (lit "d/..hwp") (some []),
    htmlDest (lit "a.hwp") (some (lit "o/u"))) = (lit "a.b.odt", lit "a", lit "..hwp", lit "o/u") := by decide +kernel
example : pathSegments [lit "h"] (lit "o//u/") = [lit "h", lit "o", lit "u"] ∧ pathSegments [lit "h"] (lit "/o") = [lit "o"] := by decide +kernel

/-! ### C88 for the command -/

/-- C88: `hwp5proc unpack` changes nothing outside of the output directory.  Missing: items with the name '.' or '..', and
output directories with such a segment. -/
theorem C88_command_partial (cwd : List PyStr) (filename : PyStr) (outDirectory : Option PyStr) (es : StgEntries) (hp : PlainEntries es)
    (hplain : ∀ s ∈ pathSegments cwd (outDirectory.getD (splitext (basename filename)).1), 5 ∉ s ∧ PlainName s) (fs : FS) (r : List PyStr)
    (hr : ¬ pathSegments cwd (outDirectory.getD (splitext (basename filename)).1) <+: r) :
    (unpackMain cwd filename outDirectory es fs).1 r = fs r := by
  unfold unpackMain
  dsimp only
  split
  · rfl
  · have h1 := onlyBelow_exists_mkdir (pathSegments cwd (outDirectory.getD (splitext (basename filename)).1)) [] (by
      simpa using fun s hs => (hplain s hs).2)
    have h2 := onlyBelow_unpack (pathSegments cwd (outDirectory.getD (splitext (basename filename)).1)) [] hplain (by simp) es hp
    simp only [List.append_nil] at h1 h2
    exact (h1.andThen h2) fs r hr

/-- `hwp5proc unpack d/r.hwp` adds to the directory 'r'. -/
example : (fun o => (o.2, [[lit "r", lit "B"], [lit "r", lit "x"], [lit "f"]].map o.1))
    (unpackMain [] (lit "d/r.hwp") none (.cons (lit "B") (.stream [5]) .nil) htmlFS) =
    (none, [some (.file [5]), some (.file [2]), some (.file [3])]) := by decide +kernel

/-! ### C91: conversions into one file -/

/-- C91: a document that can be read and transformed: the result is on the standard output, or in the file and nothing
else is changed; the exit status is 0. -/
theorem C91_file (xsl : Bytes → Bytes × Option PyErr) (xml result : Bytes) (hx : xsl xml = (result, none)) (cwd : List PyStr) (fs : FS)
    (hfs : ProperFS fs) :
    (∀ o, o = none ∨ o = some [] → fileMain xsl cwd o (.ok (xml, none)) fs = ⟨0, result, fs⟩) ∧
    ∀ o parent name, pathSegments cwd o = parent ++ [name] → o ≠ [] → o.getLast? ≠ some slash → (∀ s ∈ parent ++ [name], PlainName s) →
      fs parent = some .dir → fs (parent ++ [name]) ≠ some .dir →
      fileMain xsl cwd (some o) (.ok (xml, none)) fs = ⟨0, [], fs.set (parent ++ [name]) (.file result)⟩ := by
  refine ⟨?_, ?_⟩
  · rintro o (rfl | rfl) <;> unfold fileMain <;> simp only [transformHwp5, hx] <;> rfl
  · intro o parent name hp ho hl hplain hd hn
    cases o with
    | nil => exact absurd rfl ho
    | cons c cs =>
      unfold fileMain
      simp only [transformHwp5, hx, if_neg hl, hp, writeWith_ok (fun s hs => hplain s (by simp [hs])) (hplain name (by simp)) (dirAt_of_proper hfs hd) hn]
      rfl

/-- C91: a file that is not a HWP document changes and prints nothing, and the exit status says so. -/
theorem C91_not_a_document (xsl : Bytes → Bytes × Option PyErr) (cwd : List PyStr) (output : Option PyStr) (fs : FS) :
    fileMain xsl cwd output (.error .invalidHwp5File) fs = ⟨1, [], fs⟩ := rfl

/-- C91: exit status 0 means that the output is complete.  Missing: a `ParseError` (C91_parse_error). -/
theorem C91_status_partial (xsl : Bytes → Bytes × Option PyErr) (cwd : List PyStr) (output : Option PyStr) (xml : Bytes × Option PyErr) (fs : FS)
    (hr : xml.2 ≠ some .parseError) (hx : (xsl xml.1).2 ≠ some .parseError) (h : (fileMain xsl cwd output (.ok xml) fs).status = 0) :
    xml.2 = none ∧ (xsl xml.1).2 = none ∧
      ((fileMain xsl cwd output (.ok xml) fs).stdout = (xsl xml.1).1 ∨ ∃ p, (fileMain xsl cwd output (.ok xml) fs).fs p = some (.file (xsl xml.1).1)) := by
  have hst : ∀ e : Option PyErr, exitStatus e = 0 → e ≠ some .parseError → e = none := by
    intro e
    cases e with
    | none => intros; rfl
    | some e => cases e <;> simp [exitStatus]
  obtain ⟨x, e⟩ := xml
  obtain ⟨b, f, hb⟩ : ∃ b f, transformHwp5 xsl (x, e) = (b, f) := ⟨_, _, rfl⟩
  have hf : f ≠ some .parseError := by
    cases e with
    | some e => simp [transformHwp5] at hb; rw [← hb.2]; exact hr
    | none => simp only [transformHwp5] at hb; dsimp only at hx; rw [hb] at hx; exact hx
  have key : f = none → e = none ∧ (xsl x).2 = none ∧ (xsl x).1 = b := by
    rintro rfl
    cases e with
    | some e => simp [transformHwp5] at hb
    | none => simp only [transformHwp5] at hb; rw [hb]; exact ⟨rfl, rfl, rfl⟩
  cases output with
  | none =>
    unfold fileMain at h ⊢
    dsimp only at h ⊢
    rw [hb] at h ⊢
    obtain ⟨h1, h2, h3⟩ := key (hst _ h hf)
    exact ⟨h1, h2, Or.inl h3.symm⟩
  | some o =>
    cases o with
    | nil =>
      unfold fileMain at h ⊢
      dsimp only at h ⊢
      rw [hb] at h ⊢
      obtain ⟨h1, h2, h3⟩ := key (hst _ h hf)
      exact ⟨h1, h2, Or.inl h3.symm⟩
    | cons c cs =>
      unfold fileMain at h ⊢
      dsimp only at h ⊢
      rw [hb] at h ⊢
      split at h
      · simp [exitStatus] at h
      · rename_i hl
        rw [if_neg hl]
        rcases writeWith_cases fs (pathSegments cwd (c :: cs)) b f with hw | ⟨q, hw⟩
        · rw [hw] at h; simp [exitStatus] at h
        · rw [hw] at h ⊢
          obtain ⟨h1, h2, h3⟩ := key (hst _ h hf)
          exact ⟨h1, h2, Or.inr ⟨q, by simp [FS.set, h3]⟩⟩

/-- C91 is violated: a document that cannot be read further than a `ParseError` empties the destination, and the exit
status is 0. -/
theorem C91_parse_error (xsl : Bytes → Bytes × Option PyErr) (xml : Bytes) (cwd : List PyStr) (fs : FS) (hfs : ProperFS fs) (o : PyStr)
    (parent : List PyStr) (name : PyStr) (hp : pathSegments cwd o = parent ++ [name]) (ho : o ≠ []) (hl : o.getLast? ≠ some slash)
    (hplain : ∀ s ∈ parent ++ [name], PlainName s) (old : Bytes) (h : fs (parent ++ [name]) = some (.file old)) :
    fileMain xsl cwd (some o) (.ok (xml, some .parseError)) fs = ⟨0, [], fs.set (parent ++ [name]) (.file [])⟩ := by
  have hd : fs parent = some .dir := hfs _ parent (by rw [h]; simp) (List.prefix_append _ _) (by simp)
  cases o with
  | nil => exact absurd rfl ho
  | cons c cs =>
    unfold fileMain
    simp only [transformHwp5, if_neg hl, hp, writeWith_ok (fun s hs => hplain s (by simp [hs])) (hplain name (by simp)) (dirAt_of_proper hfs hd) (by rw [h]; simp)]
    rfl

example : (fun o => (o.status, o.stdout, [[lit "f"], [lit "r", lit "x"]].map o.fs))
    (fileMain (fun x => (x ++ [7], none)) [lit "r"] (some (lit "x")) (.ok ([9], none)) htmlFS) = (0, [], [some (.file [3]), some (.file [9, 7])]) := by
  decide +kernel
example : (fun o => (o.status, o.stdout, [[lit "f"], [lit "r"]].map o.fs))
    (fileMain (fun x => (x ++ [7], none)) [] (some (lit "r")) (.ok ([9], none)) htmlFS) = (1, [], [some (.file [3]), some .dir]) := by
  decide +kernel

end Hwp.Props
