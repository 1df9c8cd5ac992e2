/-
Property C85: `hwp5proc find` prints a line for exactly the models that are asked for.
-/
import Verif.Proofs.Find
import Verif.Props.Document
set_option linter.unusedSimpArgs false
set_option linter.unusedVariables false
set_option autoImplicit false
namespace Hwp.Props
open Hwp Spec

/-! ### Sample files -/

/-- A file with the sample document. -/
def sampleFile : FindFile :=
  ⟨lit "a.hwp", .ok [5, 0, 1, 7], .ok sampleDocInfo, .ok [(lit "Section0", .ok sampleBody)], .error .keyError⟩

/-- A file whose `DocInfo` has a record with a tag that has no name, and one that is cut off. -/
def brokenFile : FindFile :=
  ⟨lit "b.hwp", .ok [5, 0, 1, 7], .ok (recordBytes 29 0 [1, 2] ++ recordBytes 18 0 [1, 0, 3]), .ok [], .error .keyError⟩

/-- The reader of each version. -/
def readers (ver : Version) : ModelReader Fields := directReader ver

/-! ### What is found -/

/-- C85: if all the streams can be read, the lines printed are those of the wanted models of all
files, in the order of the files; in a file those of `DocInfo` come first.  Missing: numbers of tags without a
name (C85_unknown_tag_number), `ViewText` (C85_view_text), files behind one that raises an exception other than
`ParseError` (C85_other_error). -/
theorem C85_found_partial (rd : Version → ModelReader Fields) (args : FindArgs) (hk : TagKnown args) (files : List FindFile)
    (h : ∀ f ∈ files, ∃ ver streams, Streams f ver streams ∧ ∀ p ∈ streams, (streamModels (rd ver) p.2).err = none) :
    ∃ lines, findMain rd args files = .ofList lines ∧ FileLines args rd files lines := by
  obtain ⟨tag, h1, h2⟩ := findCond_ok args hk
  unfold findMain
  rw [h1]
  dsimp only
  induction files with
  | nil => exact ⟨[], rfl, .nil⟩
  | cons f fs ih =>
    obtain ⟨lines, h3, h4⟩ := ih (fun g hg => h g (List.mem_cons_of_mem _ hg))
    obtain ⟨ver, streams, hs, hr⟩ := h f (List.mem_cons_self ..)
    rw [findLoop, fileModels_ok rd f ver streams hs hr, h3]
    exact ⟨_, rfl, .cons f fs ver streams _ _ hs (stream_lines args _ h2 (rd ver) f.name streams) h4⟩

example : TagKnown ⟨none, some (lit "67"), false⟩ := by
  intro s n hs _ hn
  cases hs
  rw [show n = 67 from by
    have := (C81_integers _ _).2 hn
    rw [show pyInt (lit "67") = some 67 by decide +kernel] at this
    injection this with this
    exact this.symm]
  exact ⟨67, "HWPTAG_PARA_TEXT", rfl, by decide +kernel⟩

example : findMain readers ⟨none, some (lit "67"), false⟩ [sampleFile, sampleFile] =
    .ofList [lit "a.hwp BodyText/Section0 1 HWPTAG_PARA_TEXT ParaText\n", lit "a.hwp BodyText/Section0 1 HWPTAG_PARA_TEXT ParaText\n"] := by
  decide +kernel
example : findMain readers ⟨some (lit "BinData"), none, false⟩ [sampleFile] =
    .ofList [lit "a.hwp DocInfo 1 HWPTAG_BIN_DATA BinData\n"] := by decide +kernel

/-- C85: whatever the files are, every line is that of a wanted model in a record stream of one of them. -/
theorem C85_sound (rd : Version → ModelReader Fields) (args : FindArgs) (hk : TagKnown args) (files : List FindFile) (line : PyStr)
    (h : line ∈ (findMain rd args files).out) :
    ∃ f ∈ files, ∃ ver stream s m, f.version = .ok ver ∧ m ∈ (streamModels (rd ver) s).out ∧ Wanted args m ∧ LineOf f.name stream m line ∧
      ((f.docinfo = .ok s ∧ stream = lit "DocInfo") ∨
        ∃ sections name, f.bodytext = .ok sections ∧ (name, .ok s) ∈ sections ∧ stream = lit "BodyText/" ++ name) := by
  obtain ⟨tag, h1, h2⟩ := findCond_ok args hk
  unfold findMain at h
  rw [h1] at h
  obtain ⟨f, hf, m, hm, hc, rfl⟩ := findLoop_mem _ _ _ _ h
  unfold fileModels at hm
  split at hm
  · cases hm
  · next ver hv =>
    obtain ⟨x, hx, rfl⟩ := List.mem_map.1 hm
    obtain ⟨s, h3, h4⟩ := flatModels_mem _ _ _ hx
    exact ⟨f, hf, ver, x.1, s, x.2, hv, h3, (h2 _).1 hc, foundLine_of _ _ _, h4⟩

/-- C85: after a stream that cannot be parsed the search goes on with the next file; what was
found before is printed. -/
theorem C85_parse_error (rd : Version → ModelReader Fields) (args : FindArgs) (hk : TagKnown args) (f : FindFile) (fs : List FindFile)
    (ver : Version) (pre : List (PyStr × Bytes)) (p : PyStr × Bytes) (post : List (PyStr × Bytes))
    (hs : Streams f ver (pre ++ p :: post)) (h : ∀ q ∈ pre, (streamModels (rd ver) q.2).err = none)
    (he : (streamModels (rd ver) p.2).err = some .parseError) :
    ∃ xs, StreamLines args (rd ver) f.name (pre ++ [p]) xs ∧ findMain rd args (f :: fs) = .prepend xs (findMain rd args fs) := by
  obtain ⟨tag, h1, h2⟩ := findCond_ok args hk
  unfold findMain
  rw [h1]
  dsimp only
  rw [findLoop, fileModels_upto rd f ver pre p post _ hs h he]
  exact ⟨_, stream_lines args _ h2 (rd ver) f.name _, rfl⟩

example : (streamModels (directReader [5, 0, 1, 7]) (recordBytes 29 0 [1, 2] ++ recordBytes 18 0 [1, 0, 3])).err = some .parseError := by decide +kernel
example : findMain readers ⟨none, none, false⟩ [brokenFile, sampleFile] =
    .ofList [lit "b.hwp DocInfo 0 HWPTAG13 UnknownTagModel\n",
      lit "a.hwp DocInfo 0 HWPTAG_DOCUMENT_PROPERTIES DocumentProperties\n", lit "a.hwp DocInfo 1 HWPTAG_BIN_DATA BinData\n",
      lit "a.hwp BodyText/Section0 0 HWPTAG_PARA_HEADER Paragraph\n", lit "a.hwp BodyText/Section0 1 HWPTAG_PARA_TEXT ParaText\n",
      lit "a.hwp BodyText/Section0 2 HWPTAG_PARA_CHAR_SHAPE ParaCharShape\n", lit "a.hwp BodyText/Section0 3 HWPTAG_CTRL_HEADER SectionDef\n"] := by
  decide +kernel

/-- C85 (violated): any other exception ends the command, and the files behind are not searched. -/
theorem C85_other_error (rd : Version → ModelReader Fields) (args : FindArgs) (hk : TagKnown args) (f : FindFile) (fs : List FindFile)
    (ver : Version) (pre : List (PyStr × Bytes)) (p : PyStr × Bytes) (post : List (PyStr × Bytes)) (e : PyErr)
    (hs : Streams f ver (pre ++ p :: post)) (h : ∀ q ∈ pre, (streamModels (rd ver) q.2).err = none)
    (he : (streamModels (rd ver) p.2).err = some e) (hne : e ≠ .parseError) :
    ∃ xs, StreamLines args (rd ver) f.name (pre ++ [p]) xs ∧ findMain rd args (f :: fs) = ⟨xs, some e⟩ := by
  obtain ⟨tag, h1, h2⟩ := findCond_ok args hk
  unfold findMain
  rw [h1]
  dsimp only
  rw [findLoop, fileModels_upto rd f ver pre p post _ hs h he]
  refine ⟨_, stream_lines args _ h2 (rd ver) f.name _, ?_⟩
  cases e <;> first | rfl | exact absurd rfl hne

/-- A record that is cut off within its first member. -/
example : findMain readers ⟨none, none, false⟩ [{ sampleFile with docinfo := .ok (recordBytes 18 0 [1]) }, sampleFile] = .raise .keyError := by
  decide +kernel

/-! ### Tags -/

/-- C85: the number of a tag and its name mean the same. -/
theorem C85_tag_number (rd : Version → ModelReader Fields) (model : Option PyStr) (incomplete : Bool) (files : List FindFile)
    (t : Nat) (name : String) (s : PyStr) (ht : (t, name) ∈ sourceTagnames) (hs : IntText s t) :
    findMain rd ⟨model, some s, incomplete⟩ files = findMain rd ⟨model, some (lit name), incomplete⟩ files := by
  have h1 : tagArg (some s) = .ok (some (lit name)) := by
    have hi := (C81_integers _ _).2 hs
    have hn := (tagname_iff _ _).1 (TagName.known t name ht)
    rw [sourceTagnames_eq] at ht
    obtain ⟨n', hl⟩ := tag_lookup_of_mem ht
    have hl' : tagname t = lit n' := by unfold tagname; rw [hl]
    match s, hi with
    | [], hi => cases (show pyInt [] = none by decide +kernel).symm.trans hi
    | c :: s, hi =>
      unfold tagArg
      dsimp only
      rw [hi]
      dsimp only
      rw [if_pos (Int.natCast_nonneg t), Int.toNat_natCast, hl, hn, hl']
  have h2 : tagArg (some (lit name)) = .ok (some (lit name)) := by
    rw [sourceTagnames_eq] at ht
    have : ∀ p ∈ tagnames, tagArg (some (lit p.2)) = .ok (some (lit p.2)) := by decide +kernel
    exact this _ ht
  unfold findMain
  dsimp only
  rw [h1, h2]

example : IntText (lit " +66 ") 66 := (C81_integers _ _).1 (by decide +kernel)
example : findMain readers ⟨none, some (lit " +66 "), false⟩ [sampleFile] =
    .ofList [lit "a.hwp BodyText/Section0 0 HWPTAG_PARA_HEADER Paragraph\n"] := by decide +kernel

/-- C85 (violated): the number of a tag without a name of its own is refused, although there are records with it, and
it can be found by the name that is shown. -/
theorem C85_unknown_tag_number :
    (∀ rd model incomplete files s t, s ≠ [] → IntText s t → (∀ n : Nat, t = n → ∀ name, (n, name) ∉ sourceTagnames) →
      findMain rd ⟨model, some s, incomplete⟩ files = .raise .keyError) ∧
    findMain readers ⟨none, some (lit "29"), false⟩ [brokenFile] = .raise .keyError ∧
    findMain readers ⟨none, some (lit "HWPTAG13"), false⟩ [brokenFile] = .ofList [lit "b.hwp DocInfo 0 HWPTAG13 UnknownTagModel\n"] := by
  refine ⟨?_, by decide +kernel, by decide +kernel⟩
  intro rd model incomplete files s t hne hs ht
  have hi := (C81_integers _ _).2 hs
  unfold findMain
  dsimp only
  have : tagArg (some s) = .error .keyError := by
    match s with
    | [] => exact absurd rfl hne
    | c :: s =>
      unfold tagArg
      dsimp only
      rw [hi]
      dsimp only
      by_cases h0 : 0 ≤ t
      · rw [if_pos h0]
        cases hl : tagnames.lookup t.toNat with
        | none => rfl
        | some n =>
          have hm := tagnames_lookup_mem _ _ _ hl
          rw [← sourceTagnames_eq] at hm
          exact absurd hm (ht _ (by omega) n)
      · rw [if_neg h0]
  rw [this]

/-! ### Incomplete models -/

/-- C85: `--incomplete` asks for the models whose record has data behind what was read. -/
theorem C85_incomplete (rd : Version → ModelReader Fields) (files : List FindFile) (line : PyStr)
    (h : line ∈ (findMain rd ⟨none, none, true⟩ files).out) :
    ∃ f ∈ files, ∃ stream m, LineOf f.name stream m line ∧ ∃ u, m.unparsed = some u := by
  obtain ⟨f, hf, ver, stream, s, m, -, -, hw, hl, -⟩ := C85_sound rd ⟨none, none, true⟩ (fun s n h => by cases h) files line h
  exact ⟨f, hf, stream, m, hl, hw.incomplete rfl⟩

example : findMain readers ⟨none, none, true⟩ [{ sampleFile with docinfo := .ok (recordBytes 16 0 (List.replicate 28 1)), bodytext := .ok [] }] =
    .ofList [lit "a.hwp DocInfo 0 HWPTAG_DOCUMENT_PROPERTIES DocumentProperties\n"] := by decide +kernel

/-! ### The text of distribution documents -/

/-- C85 (violated): `ViewText`, where the text of a distribution document is, is never searched. -/
theorem C85_view_text (rd : Version → ModelReader Fields) (args : FindArgs) (f : FindFile) (fs gs : List FindFile)
    (v : Except PyErr (List (PyStr × Except PyErr Bytes))) :
    findMain rd args (fs ++ { f with viewtext := v } :: gs) = findMain rd args (fs ++ f :: gs) := by
  have : ∀ cond, findLoop rd cond (fs ++ { f with viewtext := v } :: gs) = findLoop rd cond (fs ++ f :: gs) := by
    intro cond
    induction fs with
    | nil => rfl
    | cons g fs ih =>
      rw [List.cons_append, List.cons_append, findLoop, findLoop, ih]
  unfold findMain
  split
  · rfl
  · rw [this]

/-- A distribution document: the paragraph is in `ViewText`. -/
example : findMain readers ⟨some (lit "Paragraph"), none, false⟩
    [⟨lit "d.hwp", .ok [5, 0, 1, 7], .ok sampleDocInfo, .ok [], .ok [(lit "Section0", .ok sampleBody)]⟩] = .ofList [] := by decide +kernel

/-! ### What a line says -/

/-- A text without blanks in front of a blank. -/
theorem word_inj {a b x y : PyStr} (ha : 0x20 ∉ a) (hb : 0x20 ∉ b) (h : x ++ 0x20 :: a = y ++ 0x20 :: b) : x = y ∧ a = b := by
  induction x generalizing y with
  | nil =>
    cases y with
    | nil => simpa using h
    | cons c y =>
      injection h with h1 h2
      exact absurd (h2 ▸ List.mem_append_right _ (List.mem_cons_self ..)) ha
  | cons c x ih =>
    cases y with
    | nil =>
      injection h with h1 h2
      exact absurd (h2.symm ▸ List.mem_append_right _ (List.mem_cons_self ..)) hb
    | cons d y =>
      injection h with h1 h2
      obtain ⟨rfl, rfl⟩ := ih h2
      exact ⟨by rw [h1], rfl⟩

/-- C85: number, tag and type can be read off the end of a line, and what is before is the name of the file and of the
stream. -/
theorem C85_line (rd rd' : ModelReader Fields) (s s' : Bytes) (m m' : PModel Fields) (hm : m ∈ (streamModels rd s).out)
    (hm' : m' ∈ (streamModels rd' s').out) (file file' stream stream' line : PyStr)
    (h : LineOf file stream m line) (h' : LineOf file' stream' m' line) :
    m.record.seqno = m'.record.seqno ∧ m.record.tagid = m'.record.tagid ∧ lit m.type = lit m'.type ∧
      file ++ lit " " ++ stream = file' ++ lit " " ++ stream' := by
  obtain ⟨tag, ht, rfl⟩ := h
  obtain ⟨tag', ht', he⟩ := h'
  have hb : lit " " = [0x20] := by decide
  have hdec : ∀ n : Int, 0x20 ∉ Spec.decimal n := by
    intro n hmem
    rw [← intStr_eq, intStr_decimal] at hmem
    have := decimal_plain n _ hmem
    simp [asciiSpace] at this
  have htag : ∀ t n, TagName t n → 0x20 ∉ n := by
    intro t n h
    cases h with
    | known k hk =>
      rw [sourceTagnames_eq] at hk
      have : ∀ p ∈ tagnames, 0x20 ∉ lit p.2 := by decide +kernel
      exact this _ hk
    | unknown _ =>
      intro hmem
      rcases List.mem_append.1 hmem with h | h
      · exact absurd h (by decide)
      · exact hdec _ h
  rw [hb] at he ⊢
  have he1 := List.append_cancel_right he
  have h1 := names_no_space _ (streamModels_names rd s m hm)
  have h2 := names_no_space _ (streamModels_names rd' s' m' hm')
  rw [List.append_assoc _ [0x20] (lit _), List.append_assoc _ [0x20] (lit _), List.singleton_append, List.singleton_append] at he1
  obtain ⟨he2, h3⟩ := word_inj h1 h2 he1
  rw [List.append_assoc _ [0x20] tag, List.append_assoc _ [0x20] tag', List.singleton_append, List.singleton_append] at he2
  obtain ⟨he3, rfl⟩ := word_inj (htag _ _ ht) (htag _ _ ht') he2
  rw [List.append_assoc _ [0x20] (Spec.decimal _), List.append_assoc _ [0x20] (Spec.decimal _), List.singleton_append, List.singleton_append] at he3
  obtain ⟨he4, h5⟩ := word_inj (hdec _) (hdec _) he3
  refine ⟨?_, C81_tag_names_differ _ _ _ ht ht', h3, he4⟩
  rw [← intStr_eq, ← intStr_eq] at h5
  exact Int.ofNat_inj.1 (intStr_inj h5)

example : LineOf (lit "a b.hwp") (lit "DocInfo") ⟨⟨29, 0, 2, [1, 2], 0⟩, "UnknownTagModel", [], some [1, 2]⟩
    (lit "a b.hwp DocInfo 0 HWPTAG13 UnknownTagModel\n") := ⟨lit "HWPTAG13", (tagname_iff _ _).2 (by decide +kernel), by decide +kernel⟩

end Hwp.Props
