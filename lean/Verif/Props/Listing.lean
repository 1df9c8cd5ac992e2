/-
C84: `hwp5proc ls` and `hwp5proc cat`, with and without virtual streams.
-/
import Verif.Proofs.Listing
set_option autoImplicit false
namespace Hwp.Props
open Hwp Spec

/-- C84: `ls` lists the path of every stream exactly once, ordered by the names from the top
down. -/
theorem C84_ls (es : VEntries) (h : RealEntries es) (d : Nat) (hd : itemDepth (.storage es []) ≤ d) :
    ∃ ps : List (List PyStr × Bytes), ps.Perm (realStreams es) ∧ ps.Pairwise (fun a b => a.1 < b.1) ∧
      printStorage plainView d [] es = some (.ok (ps.map fun p => unicodeEscape (pathText p.1))) := by
  rw [itemDepth] at hd
  obtain ⟨ps, h1, h2, h3⟩ := print_all plain_viewed d es [] hd h
  exact ⟨ps, h1, h2, h3⟩

/-- C84: `ls --vstreams` lists in addition one path for each other format of a stream or storage,
if the names with extensions are not names of other items. -/
theorem C84_ls_vstreams_partial (es : VEntries) (h : AllNamesOk (.storage es [])) (d : Nat) (hd : itemDepth (.storage es []) ≤ d) :
    ∃ ps : List (List PyStr × Bytes), ps.Perm (allStreams es) ∧ ps.Pairwise (fun a b => a.1 < b.1) ∧
      printStorage extraView d [] es = some (.ok (ps.map fun p => unicodeEscape (pathText p.1))) := by
  rw [itemDepth] at hd
  rw [AllNamesOk] at h
  obtain ⟨ps, h1, h2, h3⟩ := print_all extra_viewed d es [] hd h
  exact ⟨ps, h1, h2, h3⟩

/-- C84: a listed line consists of printable ASCII characters (in particular it is one line), and
the path can be read from it. -/
theorem C84_line (path : PyStr) (h : ∀ c ∈ path, c < 0x110000) :
    (∀ c ∈ unicodeEscape path, 0x20 ≤ c ∧ c < 0x7f) ∧ readEscaped (unicodeEscape path) = some path :=
  ⟨escape_printable path, readEscaped_escape path h⟩

/-- C84: `cat` gives exactly the listed paths, each with the contents of its stream. -/
theorem C84_cat (es : VEntries) (h : RealEntries es) (path : PyStr) (d : Bytes) :
    catStream plainView es path = .ok d ↔ ∃ q, (q, d) ∈ realStreams es ∧ path = pathText q :=
  cat_iff plain_viewed es h path d

/-- C84: the same with virtual streams, if the names with extensions are not names of other
items. -/
theorem C84_cat_vstreams_partial (es : VEntries) (h : AllNamesOk (.storage es [])) (path : PyStr) (d : Bytes) :
    catStream extraView es path = .ok d ↔ ∃ q, (q, d) ∈ allStreams es ∧ path = pathText q := by
  rw [AllNamesOk] at h
  exact cat_iff extra_viewed es h path d

theorem openView_extra (segs : List PyStr) : ∀ (i j : VItem), openView plainView i segs = .ok j → openView extraView i segs = .ok j := by
  induction segs with
  | nil => intro i j h; exact h
  | cons n segs ih =>
    intro i j h
    cases i with
    | stream => cases h
    | storage es f =>
      rw [openView] at h ⊢
      have hp : plainView.get es n = es.lookup n := rfl
      have he : extraView.get es n = extraGet es n := rfl
      rw [hp] at h
      rw [he, extraGet]
      cases hl : es.lookup n with
      | none => rw [hl] at h; cases h
      | some k => rw [hl] at h; exact ih k j h

/-- C84: virtual streams never hide real ones. -/
theorem C84_real_first (es : VEntries) (path : PyStr) (d : Bytes) (h : catStream plainView es path = .ok d) :
    catStream extraView es path = .ok d := by
  unfold catStream at h ⊢
  cases ho : openView plainView (.storage es []) (splitSlash path) with
  | error e => rw [ho] at h; cases h
  | ok i => rw [ho] at h; rw [openView_extra _ _ _ ho]; exact h

/-- A storage with a stream `A`, which has the format `.x`, and a stream `A.x`. -/
def exSameName : VEntries := .cons [0x41] (.stream [1] [([0x2e, 0x78], [2])]) (.cons [0x41, 0x2e, 0x78] (.stream [3] []) .nil)

/-- **Violated**: when a stream has the name of a virtual stream, this name is listed twice and
the virtual stream cannot be read. -/
theorem C84_same_name :
    RealEntries exSameName ∧ ([[0x41, 0x2e, 0x78]], [2]) ∈ allStreams exSameName ∧
    printStorage extraView 1 [] exSameName = some (.ok [lit "A", lit "A.x", lit "A.x"]) ∧
    catStream extraView exSameName (lit "A.x") = .ok [3] := by
  refine ⟨?_, ?_, by decide +kernel, by decide +kernel⟩
  · simp [exSameName, RealEntries, RealNames, VEntries.names]
  · simp [exSameName, allStreams.eq_def]

/-! ### Examples -/

/-- Like the example in proc/ls.py. -/
def exDocument : VEntries :=
  .cons (5 :: lit "Hwp") (.stream [1] [(lit ".txt", [2])]) <|
  .cons (lit "DocInfo") (.stream [3] [(lit ".xml", [4]), (lit ".models", [5])]) <|
  .cons (lit "BodyText") (.storage (.cons (lit "Section0") (.stream [6] [(lit ".xml", [7])]) .nil) [(lit ".xml", [8])]) .nil

example : printStorage plainView 2 [] exDocument =
    some (.ok [lit "\\x05Hwp", lit "BodyText/Section0", lit "DocInfo"]) := by decide +kernel
example : printStorage extraView 2 [] exDocument =
    some (.ok [lit "\\x05Hwp", lit "\\x05Hwp.txt", lit "BodyText/Section0", lit "BodyText/Section0.xml", lit "BodyText.xml",
      lit "DocInfo", lit "DocInfo.models", lit "DocInfo.xml"]) := by decide +kernel
example : catStream extraView exDocument (lit "BodyText.xml") = .ok [8] := by decide +kernel
example : catStream extraView exDocument (lit "BodyText/Section0.xml") = .ok [7] := by decide +kernel
example : catStream extraView exDocument (lit "BodyText") = .error .attributeError := by decide +kernel
example : catStream plainView exDocument (lit "DocInfo.xml") = .error .keyError := by decide +kernel
example : RealEntries exDocument := by
  simp only [exDocument, RealEntries, RealNames, VEntries.names]; decide
example : AllNamesOk (.storage exDocument []) := by
  simp only [exDocument, AllNamesOk, AllEntriesOk, Spec.allNames.eq_def]; decide
example : unicodeEscape [0x5c, 0xe9, 0xac00, 0x1f600, 10] = lit "\\\\\\xe9\\uac00\\U0001f600\\n" := by decide +kernel
example : itemDepth (.storage exDocument []) = 2 := by decide +kernel

end Hwp.Props
