/-
What is shown for the items of a section is what the specification says.
-/
import Verif.Spec.Shown
import Verif.Proofs.DocAll
set_option linter.unusedSimpArgs false
set_option linter.unusedVariables false
set_option autoImplicit false
namespace Hwp
open Spec

theorem sourceChar_none (code : Nat) (h : 32 ≤ code) : sourceChar code = none := by
  unfold sourceChar pyControlChars
  simp only [List.findSome?_eq_none_iff, List.mem_cons, List.not_mem_nil, or_false]
  rintro x hx
  rcases hx with rfl | rfl | rfl | rfl | rfl | rfl | rfl | rfl | rfl | rfl | rfl | rfl | rfl | rfl | rfl | rfl | rfl | rfl | rfl |
    rfl | rfl | rfl | rfl | rfl | rfl | rfl | rfl <;> exact if_neg (by omega)

theorem ctrlName_source (code : Nat) : ctrlName code = ((sourceChar code).map (·.1)).getD "" := by
  by_cases h : code < 32
  · have : ∀ c < 32, ctrlName c = ((sourceChar c).map (·.1)).getD "" := by decide +kernel
    exact this code h
  · have h1 : ctrlName code = "" := by
      unfold ctrlName
      rw [List.getElem?_eq_none (by simpa using Nat.le_of_not_lt h)]
      rfl
    have h2 := sourceChar_none code (by omega)
    rw [h1, h2]
    rfl

theorem kindName_source (k : CtrlKind) : kindName k = kindText k := by cases k <;> decide +kernel

theorem langName_spec (l : Lang) : lit (langName l) = langText l := by cases l <;> decide +kernel

theorem dummyLineSeg_source : dummyLineSeg = missingLineSeg := rfl

theorem setField_shown (k : String) (v : Value PVal) (fs : Fields) :
    setField k v fs = fs.takeWhile (fun p => p.1 ≠ k) ++ [(k, v)] ++ (fs.dropWhile fun p => p.1 ≠ k).drop 1 := by
  induction fs with
  | nil => rfl
  | cons p fs ih =>
    obtain ⟨n, w⟩ := p
    unfold setField
    by_cases h : n = k
    · subst h
      simp
    · simp [h, ih]

theorem concItem_shown (ms : List (PModel Fields)) (ctx : DCtx) : concItem ms ctx = shownItem ms ctx := by
  funext a
  have hrec : ∀ i, recordItem ms ctx i = (match ms[i]? with
      | some m => ⟨m.type, m.content, ctx⟩
      | none => ⟨"", [], ctx⟩) := by
    intro i
    unfold recordItem contentAt
    cases ms[i]? <;> rfl
  cases a with
  | sectionDef o t =>
    cases o with
    | none => exact hrec _
    | some n =>
      unfold concItem shownItem recordNo contentAt
      dsimp only
      cases ms[t]? <;> simp only [shownAttrs, setField_shown] <;> rfl
  | tableBody o t =>
    cases o with
    | none =>
      unfold concItem shownItem recordNo contentAt
      dsimp only
      cases ms[t]? <;> rfl
    | some n => exact hrec _
  | lineSeg id =>
    obtain ⟨o, k⟩ := id
    cases o with
    | none => rfl
    | some i =>
      unfold concItem shownItem recordNo contentAt
      dsimp only
      cases h : ms[i]? with
      | some m => rfl
      | none => simp [linesegsOf]
  | text s shape l =>
    cases l with
    | none => rfl
    | some l =>
      unfold concItem shownItem recordNo strAttr natAttr
      dsimp only
      rw [langName_spec]
      rfl
  | controlChar code kind shape =>
    unfold concItem shownItem recordNo strAttr natAttr
    dsimp only
    rw [ctrlName_source, kindName_source]
    simp only [List.mem_cons, List.not_mem_nil, or_false]
  | columnSet => rfl
  | tableRow => rfl
  | _ => exact hrec _

end Hwp
