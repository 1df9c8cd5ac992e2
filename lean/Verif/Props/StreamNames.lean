/-
C113: the names of record streams on the command line.
-/
import Verif.Proofs.StreamNames
import Verif.Props.Filestructure
import Verif.Props.Commands
set_option autoImplicit false
set_option linter.unusedSimpArgs false
set_option linter.unusedVariables false
set_option Elab.async false
namespace Hwp.Props
open Hwp Spec

/-- A name opens an item exactly if the item is at the path that the name stands for:
`docinfo` for DocInfo, `bodytext/` and a number for the section of the number, anything
else for itself. -/
theorem C113_names (f : Obj) (name : PyStr) (x : Obj) :
    recordStream f name = .ok x ↔ ∃ p, NamesPath name p ∧ Leads f p x := by
  constructor
  · intro h
    obtain ⟨p, hp⟩ := namesPath_exists name
    rw [recordStream_path f name p hp] at h
    exact ⟨p, hp, (openObj_iff p f x).1 h⟩
  · rintro ⟨p, hp, hi⟩
    rw [recordStream_path f name p hp]
    exact (openObj_iff p f x).2 hi

/-- Each name stands for one path. -/
theorem C113_one_path (name : PyStr) : ∃ p, NamesPath name p ∧ ∀ q, NamesPath name q → q = p := by
  obtain ⟨p, hp⟩ := namesPath_exists name
  refine ⟨p, hp, ?_⟩
  have key : ∀ r, NamesPath name r → r =
      (if splitSlash name = [ustr "docinfo"] then [ustr "DocInfo"]
       else match splitSlash name with
        | [a, t] => if a = ustr "bodytext" then
            match pyInt t with
            | some i => [ustr "BodyText", ustr "Section" ++ decimal i]
            | none => [a, t]
          else [a, t]
        | s => s) := by
    intro r hr
    cases hr with
    | docinfo => rw [if_pos (splitSlash_plain _ (by decide))]
    | section_ t i h1 h2 =>
      rw [split_body t h1, if_neg (by simp)]
      dsimp only
      rw [if_pos rfl, h2]
    | path _ h1 h2 h3 h4 =>
      rw [splitSlash_pathText r h1 h2, if_neg h3]
      split
      · rename_i a t
        split
        · rename_i ha
          subst ha
          rw [h4 t rfl]
        · rfl
      · rfl
  intro q hq
  rw [key q hq, ← key p hp]

example : NamesPath (ustr "bodytext/ 07") [ustr "BodyText", ustr "Section7"] := by
  have h := NamesPath.section_ (ustr " 07") 7 (by decide) (by decide +kernel)
  rw [show ustr "Section7" = ustr "Section" ++ decimal 7 by decide +kernel]
  exact h
example : NamesPath (ustr "bodytext/x") [ustr "bodytext", ustr "x"] :=
  NamesPath.path [ustr "bodytext", ustr "x"] (by simp) (by decide) (by decide) (by
    intro t ht
    have : t = ustr "x" := by simpa using ht.symm
    subst this
    decide +kernel)

/-- The bytes of the named stream. -/
def named (c : Codec) (es : StgEntries) (name : PyStr) : Except PyErr Bytes := do
  let f ← hwp5File c es
  let x ← recordStream f name
  x.openRead c

/-- `docinfo` delivers the document information as all other readers see it. -/
theorem C113_docinfo (c : Codec) (es : StgEntries) (d stored : Bytes) (h : Header)
    (hd : es.lookup (ustr "FileHeader") = some (.stream d)) (hh : header d = .ok h)
    (hsig : h.signature = hwp5Signature) (ht : es.lookup (ustr "DocInfo") = some (.stream stored)) :
    named c es (ustr "docinfo") = .ok (topStream c h.flags (ustr "DocInfo") stored) := by
  have hf := (C47_opens_iff c es _).2 ⟨d, h, hd, hh, hsig, rfl⟩
  rw [← C47_top_streams c es d h _ (ustr "DocInfo") stored hd hh hf ht]
  unfold named
  rw [hf]
  simp only [bind, Except.bind]
  rw [recordStream_path _ _ _ .docinfo, openObj]
  cases (Obj.hwpFile (layers h (.fileBase (.raw (.storage es)))) h).getitem (ustr "DocInfo") <;> rfl

/-- `bodytext/` and any spelling of a number delivers the stream `Section<number>` of the
storage BodyText, through the layers. -/
theorem C113_section (c : Codec) (es sub : StgEntries) (d stored : Bytes) (h : Header) (t : PyStr) (i : Int)
    (hd : es.lookup (ustr "FileHeader") = some (.stream d)) (hh : header d = .ok h)
    (hsig : h.signature = hwp5Signature) (ht : es.lookup (ustr "BodyText") = some (.storage sub))
    (hn : sub.lookup (ustr "Section" ++ decimal i) = some (.stream stored))
    (hs : 0x2f ∉ t) (hi : pyInt t = some i) :
    named c es (ustr "bodytext/" ++ t) = innerStream c h.flags (ustr "BodyText") stored := by
  have hf := (C47_opens_iff c es _).2 ⟨d, h, hd, hh, hsig, rfl⟩
  rw [← C47_inner_streams c es sub d h _ (ustr "BodyText") _ stored hd hh hf ht hn (by decide)]
  unfold named
  rw [hf]
  simp only [bind, Except.bind]
  rw [recordStream_path _ _ _ (.section_ t i hs hi), openObj_two]
  cases (Obj.hwpFile (layers h (.fileBase (.raw (.storage es)))) h).getitem (ustr "BodyText") <;> rfl

/-- A path of two names that is no `bodytext/<number>` delivers the stream at the path,
through the layers. -/
theorem C113_path (c : Codec) (es sub : StgEntries) (d stored : Bytes) (h : Header) (top n : PyStr)
    (hd : es.lookup (ustr "FileHeader") = some (.stream d)) (hh : header d = .ok h)
    (hsig : h.signature = hwp5Signature) (ht : es.lookup top = some (.storage sub))
    (hn : sub.lookup n = some (.stream stored)) (htop : top ∉ topStreams)
    (h1 : 0x2f ∉ top) (h2 : 0x2f ∉ n) (h3 : top = ustr "bodytext" → pyInt n = none) :
    named c es (top ++ 0x2f :: n) = innerStream c h.flags top stored := by
  have hf := (C47_opens_iff c es _).2 ⟨d, h, hd, hh, hsig, rfl⟩
  rw [← C47_inner_streams c es sub d h _ top n stored hd hh hf ht hn htop]
  unfold named
  rw [hf]
  simp only [bind, Except.bind]
  have hp : NamesPath (top ++ 0x2f :: n) [top, n] := NamesPath.path [top, n] (by simp) (by
    intro s hs
    simp only [List.mem_cons, List.not_mem_nil, or_false] at hs
    rcases hs with rfl | rfl
    · exact h1
    · exact h2) (by simp) (by
    intro t ht
    simp only [List.cons.injEq, and_true] at ht
    obtain ⟨ha, rfl⟩ := ht
    exact h3 ha)
  rw [recordStream_path _ _ _ hp, openObj_two]
  cases (Obj.hwpFile (layers h (.fileBase (.raw (.storage es)))) h).getitem top <;> rfl

/-- In a document that is not a distribution document, `bodytext/<number>` is the section
of that number of the text that the conversions use. Missing from the claim: distribution
documents (see the next theorems). -/
theorem C113_text_partial (c : Codec) (es : StgEntries) (d : Bytes) (h : Header) (f : Obj) (i : Int)
    (hd : es.lookup (ustr "FileHeader") = some (.stream d)) (hh : header d = .ok h)
    (hf : hwp5File c es = .ok f) (hdist : h.flags.testBit 2 = false) :
    recordStream f (ustr "bodytext/" ++ decimal i) = (fileText f).bind (section_ · i) := by
  rw [C62_text c es h f d hd hh hf, hdist, recordStream_path f _ _
    (.section_ _ i (decimal_noslash i) (pyInt_decimal i)), openObj_two]
  rw [if_neg (by simp)]
  cases f.getitem (ustr "BodyText") <;> rfl

/-- **Violated** in every distribution document: the text is the storage ViewText, but
`bodytext/<number>` looks into the storage BodyText. -/
theorem C113_distribution (c : Codec) (es : StgEntries) (d : Bytes) (h : Header) (f : Obj) (i : Int)
    (hd : es.lookup (ustr "FileHeader") = some (.stream d)) (hh : header d = .ok h)
    (hf : hwp5File c es = .ok f) (hdist : h.flags.testBit 2 = true) :
    fileText f = f.getitem (ustr "ViewText") ∧
    recordStream f (ustr "bodytext/" ++ decimal i) = (f.getitem (ustr "BodyText")).bind (section_ · i) := by
  rw [C62_text c es h f d hd hh hf, hdist, recordStream_path f _ _
    (.section_ _ i (decimal_noslash i) (pyInt_decimal i)), openObj_two]
  refine ⟨rfl, ?_⟩
  cases f.getitem (ustr "BodyText") <;> rfl

/-- Without a storage BodyText every `bodytext/<number>` is a `KeyError`, whatever the
document contains otherwise. -/
theorem C113_no_body (c : Codec) (es : StgEntries) (d : Bytes) (h : Header) (t : PyStr)
    (i : Int) (hd : es.lookup (ustr "FileHeader") = some (.stream d)) (hh : header d = .ok h)
    (hsig : h.signature = hwp5Signature)
    (hnone : es.lookup (ustr "BodyText") = none) (hs : 0x2f ∉ t) (hi : pyInt t = some i) :
    named c es (ustr "bodytext/" ++ t) = .error .keyError := by
  have hf := (C47_opens_iff c es _).2 ⟨d, h, hd, hh, hsig, rfl⟩
  unfold named
  rw [hf]
  simp only [bind, Except.bind]
  rw [recordStream_path _ _ _ (.section_ t i hs hi), openObj_two,
    C47_missing c es _ hf (ustr "BodyText") hnone]

/-- `hwp5proc records` of `bodytext/` and a number goes through the selected records of
what the section stream delivers. -/
theorem C113_records_section (c : Codec) (es sub : StgEntries) (d stored s : Bytes) (h : Header) (t : PyStr)
    (i : Int) (range tg : Option PyStr)
    (hd : es.lookup (ustr "FileHeader") = some (.stream d)) (hh : header d = .ok h)
    (hsig : h.signature = hwp5Signature) (ht : es.lookup (ustr "BodyText") = some (.storage sub))
    (hn : sub.lookup (ustr "Section" ++ decimal i) = some (.stream stored))
    (hs : 0x2f ∉ t) (hi : pyInt t = some i)
    (hdec : innerStream c h.flags (ustr "BodyText") stored = .ok s) :
    recordsOf c es (ustr "bodytext/" ++ t) range tg = selectRecords range tg s := by
  have hf := (C47_opens_iff c es _).2 ⟨d, h, hd, hh, hsig, rfl⟩
  have hb := C113_section c es sub d stored h t i hd hh hsig ht hn hs hi
  obtain ⟨a, w, e1, e2⟩ := C62_section_version c es sub h _ d (ustr "BodyText") _ _ hd hh hf (.inl rfl) ht hn
  have hr := recordStream_path (.hwpFile (layers h (.fileBase (.raw (.storage es)))) h) _ _
    (.section_ t i hs hi)
  rw [openObj_two, e1] at hr
  dsimp only at hr
  rw [e2] at hr
  unfold named at hb
  unfold recordsOf
  rw [hf] at hb ⊢
  simp only [bind, Except.bind] at hb
  dsimp only
  rw [hr] at hb ⊢
  dsimp only at hb ⊢
  rw [hb, hdec]

/-- `hwp5proc records` of `docinfo` goes through the selected records of the document
information. -/
theorem C113_records_docinfo (c : Codec) (es : StgEntries) (d stored : Bytes) (h : Header)
    (range tg : Option PyStr)
    (hd : es.lookup (ustr "FileHeader") = some (.stream d)) (hh : header d = .ok h)
    (hsig : h.signature = hwp5Signature) (ht : es.lookup (ustr "DocInfo") = some (.stream stored)) :
    recordsOf c es (ustr "docinfo") range tg =
      selectRecords range tg (topStream c h.flags (ustr "DocInfo") stored) := by
  have hf := (C47_opens_iff c es _).2 ⟨d, h, hd, hh, hsig, rfl⟩
  have hb := C113_docinfo c es d stored h hd hh hsig ht
  unfold named at hb
  unfold recordsOf
  rw [hf] at hb ⊢
  simp only [bind, Except.bind] at hb
  dsimp only
  have hr := recordStream_path (.hwpFile (layers h (.fileBase (.raw (.storage es)))) h) _ _ .docinfo
  cases hg : (Obj.hwpFile (layers h (.fileBase (.raw (.storage es)))) h).getitem (ustr "DocInfo") with
  | error e =>
    rw [openObj, hg] at hr
    rw [hr] at hb
    cases hb
  | ok x =>
    rw [openObj, hg] at hr
    have hr : recordStream (.hwpFile (layers h (.fileBase (.raw (.storage es)))) h) (ustr "docinfo") = .ok x := hr
    rw [hr] at hb ⊢
    dsimp only at hb
    obtain ⟨w, hx⟩ : ∃ w, x = .versioned w h.version := by
      rw [Obj.getitem] at hg
      cases hw : (layers h (.fileBase (.raw (.storage es)))).getitem (ustr "DocInfo") with
      | error e => rw [hw] at hg; cases hg
      | ok y =>
        rw [hw] at hg
        simp only [bind, Except.bind, Obj.convertFile, if_true, Except.ok.injEq] at hg
        exact ⟨y, hg.symm⟩
    subst hx
    dsimp only
    rw [hb]

/-- `hwp5proc records` shows records of the document information and of sections of the
body or view text only: every other name shows nothing and ends with an exception. -/
theorem C113_records_only (c : Codec) (es : StgEntries) (name : PyStr) (range tg : Option PyStr)
    (p : List PyStr) (hp : NamesPath name p)
    (h : ¬ (p = [ustr "DocInfo"] ∨ ∃ n, p = [ustr "BodyText", n] ∨ p = [ustr "ViewText", n])) :
    ∃ e, recordsOf c es name range tg = .raise e := by
  unfold recordsOf
  cases hf : hwp5File c es with
  | error e => exact ⟨e, rfl⟩
  | ok f =>
    dsimp only
    cases hr : recordStream f name with
    | error e => exact ⟨e, rfl⟩
    | ok x =>
      obtain ⟨d, hdr, h1, h2, h3, rfl⟩ := (C47_opens_iff c es f).1 hf
      rw [recordStream_path _ name p hp] at hr
      have hin := (openObj_iff p _ x).1 hr
      cases x with
      | versioned w v =>
        exact absurd (leads_versioned _ hdr (layers_unversioned hdr es) p w v hin) h
      | _ => exact ⟨_, rfl⟩

/-- With C81: what `records --raw bodytext/N` writes is, for a canonical record stream, the
decoded stream itself. -/
theorem C113_raw_copy (c : Codec) (es sub : StgEntries) (d stored s : Bytes) (h : Header) (i : Int)
    (hd : es.lookup (ustr "FileHeader") = some (.stream d)) (hh : header d = .ok h)
    (hsig : h.signature = hwp5Signature) (ht : es.lookup (ustr "BodyText") = some (.storage sub))
    (hn : sub.lookup (ustr "Section" ++ decimal i) = some (.stream stored))
    (hdec : innerStream c h.flags (ustr "BodyText") stored = .ok s) (hc : Canonical s) :
    recordsRaw (recordsOf c es (ustr "bodytext/" ++ decimal i) none none) = ⟨s, none⟩ := by
  rw [C113_records_section c es sub d stored s h _ i none none hd hh hsig ht hn (decimal_noslash i)
    (pyInt_decimal i) hdec, C81_raw_copy s hc]

/-- The text sections of a document that the conversions use. -/
def textSection (c : Codec) (es : StgEntries) (i : Int) : Except PyErr Bytes := do
  let f ← hwp5File c es
  let t ← fileText f
  let x ← section_ t i
  x.openRead c

/-- **Violated**, an example: the text of a distribution document has a section 0, which
can be read by its path, but not as `bodytext/0`. -/
theorem C113_distribution_example :
    textSection exCodec exDist 0 = .ok (List.replicate 32 7) ∧
    named exCodec exDist (ustr "ViewText/Section0") = .ok (List.replicate 32 7) ∧
    named exCodec exDist (ustr "bodytext/0") = .error .keyError := by
  refine ⟨?_, ?_, ?_⟩ <;> decide +kernel

/-- The names of an example document. -/
theorem C113_example :
    named exCodec (exDoc 0) (ustr "docinfo") = .ok [1] ∧
    named exCodec (exDoc 0) (ustr "bodytext/0") = .ok [2] ∧
    named exCodec (exDoc 0) (ustr "bodytext/ +00") = .ok [2] ∧
    named exCodec (exDoc 0) (ustr "BodyText/Section0") = .ok [2] ∧
    named exCodec (exDoc 0) (ustr "DocOptions/_LinkDoc") = .ok [3] ∧
    named exCodec (exDoc 0) (ustr "bodytext/1") = .error .keyError ∧
    named exCodec (exDoc 0) (ustr "bodytext/x") = .error .keyError ∧
    named exCodec (exDoc 0) (ustr "DocInfo/x") = .error .typeError := by
  refine ⟨?_, ?_, ?_, ?_, ?_, ?_, ?_, ?_⟩ <;> decide +kernel

/-- A document with three records. -/
def exRecords : StgEntries :=
  .cons (ustr "FileHeader") (.stream (exHeader 0))
  (.cons (ustr "DocInfo") (.stream [])
  (.cons (ustr "BodyText") (.storage (.cons (ustr "Section12") (.stream threeRecords) .nil))
  (.cons (ustr "PrvText") (.stream threeRecords) .nil)))

/-- The command on an example document: a selection of records, and a stream that has no
records. -/
theorem C113_records_example :
    (recordsOf exCodec exRecords (ustr "bodytext/12") (some (ustr "1-3")) none).out.map (·.payload) =
      [[0xbb], [0xcc]] ∧
    recordsRaw (recordsOf exCodec exRecords (ustr "BodyText/Section12") none none) = ⟨threeRecords, none⟩ ∧
    recordsOf exCodec exRecords (ustr "docinfo") none none = ⟨[], none⟩ ∧
    recordsOf exCodec exRecords (ustr "PrvText") none none = .raise .attributeError := by
  refine ⟨?_, ?_, ?_, ?_⟩ <;> decide +kernel

end Hwp.Props
