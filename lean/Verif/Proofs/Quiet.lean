/-
What declarations are shown as has neither text nor elements with text.
-/
import Verif.Spec.XmlFormat
import Verif.Spec.Decls
import Verif.Model.Decls
set_option linter.unusedSimpArgs false
set_option linter.unusedVariables false
namespace Hwp
open Spec

/-- The names of elements the text depends on. -/
def loudNames : List PyStr := [lit "Paragraph", lit "Text", lit "ControlChar", lit "TableControl", lit "GShapeObjectControl",
  lit "ShapePicture", lit "BinData", lit "IdMappings", lit "TableBody", lit "TableRow", lit "TableCell",
  lit "Style", lit "ParaShape", lit "CharShape", lit "FaceName"]

/-- An event without effect on the text. -/
def QuietEv : XEv → Prop
  | .start n _ => n ∉ loudNames
  | .stop n => n ∉ loudNames
  | .text _ => False

mutual
/-- No element has one of these names. -/
def quietTy (k : String) : DTy → Bool
  | .prim _ => true
  | .flags _ => true
  | .struct sn ms => decide (lit sn ∉ loudNames) && quietMembers ms
  | .array t _ => quietItem k t
  | .nArray _ t => quietItem k t
  | .xArray t _ => quietItem k t
  | .selective _ ss => quietSels k ss
/-- Items. -/
def quietItem (k : String) : DTy → Bool
  | .struct sn ms => decide (lit sn ∉ loudNames) && quietMembers ms
  | .prim .colorref => decide (lit k ∉ loudNames)
  | _ => true
/-- Members. -/
def quietMembers : DMembers → Bool
  | .nil => true
  | .cons name _ _ t rest => quietTy name t && quietMembers rest
/-- Selections. -/
def quietSels (k : String) : DSels → Bool
  | .nil => true
  | .cons _ t rest => quietTy k t && quietSels k rest
end

/-- All events are quiet. -/
def Quieted (evs : List XEv) : Prop := ∀ e ∈ evs, QuietEv e

theorem quieted_nil : Quieted [] := by intro e he; cases he
theorem quieted_append {a b : List XEv} (ha : Quieted a) (hb : Quieted b) : Quieted (a ++ b) := by
  intro e he
  rcases List.mem_append.1 he with he | he
  · exact ha e he
  · exact hb e he
theorem quieted_flatMap {α} {f : α → List XEv} (xs : List α) (h : ∀ x ∈ xs, Quieted (f x)) : Quieted (xs.flatMap f) := by
  intro e he
  obtain ⟨x, hx, he⟩ := List.mem_flatMap.1 he
  exact h x hx e he
theorem quieted_elem {n : PyStr} {as : List (PyStr × PyStr)} {kids : List XEv} (hn : n ∉ loudNames) (h : Quieted kids) :
    Quieted (elem n as kids) := by
  intro e he
  simp only [elem, List.mem_cons, List.mem_append, List.not_mem_nil, or_false] at he
  rcases he with rfl | he | rfl
  · exact hn
  · exact h e he
  · exact hn

theorem colorElem_quiet (k : String) (h : lit k ∉ loudNames) (v : Value PVal) : Quieted (colorElem k v) := by
  unfold colorElem
  split
  · exact quieted_elem h quieted_nil
  · exact quieted_nil

mutual
theorem quiet_ty (env : XmlEnv) (ctx : DCtx) (k : String) : ∀ (t : DTy) (acc : Fields) (v : Value PVal),
    quietTy k t = true → Quieted (showTy env ctx k t acc v).2
  | .prim p, acc, v, h => by
    cases v <;> simp [showTy, quieted_nil]
  | .flags f, acc, v, h => by
    cases v with
    | leaf x => cases x <;> simp [showTy, quieted_nil]
    | _ => simp [showTy, quieted_nil]
  | .struct sn ms, acc, v, h => by
    cases v with
    | struct fs =>
      simp only [quietTy, Bool.and_eq_true, decide_eq_true_eq] at h
      simp only [showTy]
      split
      · exact quieted_nil
      · exact quieted_elem h.1 (quiet_members env ctx ms [] fs h.2)
    | _ => simp [showTy, quieted_nil]
  | .array t n, acc, v, h => by
    cases v with
    | tuple xs =>
      simp only [showTy]
      exact quiet_items env ctx k t _ xs (by simpa [quietTy] using h)
    | _ => simp [showTy, quieted_nil]
  | .nArray c t, acc, v, h => by
    cases v with
    | list xs =>
      simp only [showTy]
      exact quiet_items env ctx k t _ xs (by simpa [quietTy] using h)
    | _ => simp [showTy, quieted_nil]
  | .xArray t ref, acc, v, h => by
    cases v with
    | list xs =>
      simp only [showTy]
      exact quiet_items env ctx k t _ xs (by simpa [quietTy] using h)
    | _ => simp [showTy, quieted_nil]
  | .selective ref ss, acc, v, h => by
    simp only [showTy]
    split
    · exact quiet_sels env ctx k ss _ acc v (by simpa [quietTy] using h)
    · exact quieted_nil
theorem quiet_items (env : XmlEnv) (ctx : DCtx) (k : String) : ∀ (t : DTy) (whole : Value PVal)
    (xs : List (Value PVal)), quietItem k t = true → Quieted (showItems env ctx k t whole xs).2
  | .struct sn ms, whole, xs, h => by
    simp only [quietItem, Bool.and_eq_true, decide_eq_true_eq] at h
    simp only [showItems]
    refine quieted_elem (by decide +kernel) (quieted_flatMap xs ?_)
    intro x hx
    exact quieted_elem h.1 (quiet_members env ctx ms [] _ h.2)
  | .prim .colorref, whole, xs, h => by
    simp only [showItems]
    exact quieted_flatMap xs (fun x _ => colorElem_quiet k (by simpa [quietItem] using h) x)
  | .prim (.int _), _, _, _ => by simp [showItems, quieted_nil]
  | .prim .double, _, _, _ => by simp [showItems, quieted_nil]
  | .prim (.hexBytes _), _, _, _ => by simp [showItems, quieted_nil]
  | .prim .bstr, _, _, _ => by simp [showItems, quieted_nil]
  | .prim .chid, _, _, _ => by simp [showItems, quieted_nil]
  | .prim .binStorageId, _, _, _ => by simp [showItems, quieted_nil]
  | .prim .chunks, _, _, _ => by simp [showItems, quieted_nil]
  | .prim .version, _, _, _ => by simp [showItems, quieted_nil]
  | .flags _, _, _, _ => by simp [showItems, quieted_nil]
  | .array _ _, _, _, _ => by simp [showItems, quieted_nil]
  | .nArray _ _, _, _, _ => by simp [showItems, quieted_nil]
  | .xArray _ _, _, _, _ => by simp [showItems, quieted_nil]
  | .selective _ _, _, _, _ => by simp [showItems, quieted_nil]
theorem quiet_sels (env : XmlEnv) (ctx : DCtx) (k : String) : ∀ (ss : DSels) (n : Int) (acc : Fields)
    (v : Value PVal), quietSels k ss = true → Quieted (showSels env ctx k ss n acc v).2
  | .nil, n, acc, v, h => by simp [showSels, quieted_nil]
  | .cons key t rest, n, acc, v, h => by
    simp only [quietSels, Bool.and_eq_true] at h
    simp only [showSels]
    split
    · exact quiet_ty env ctx k t acc v h.1
    · exact quiet_sels env ctx k rest n acc v h.2
theorem quiet_members (env : XmlEnv) (ctx : DCtx) : ∀ (ms : DMembers) (acc fs : Fields),
    quietMembers ms = true → Quieted (showMembers env ctx ms acc fs).2
  | .nil, acc, fs, h => by simp [showMembers, quieted_nil]
  | .cons name version condition t rest, acc, fs, h => by
    simp only [quietMembers, Bool.and_eq_true] at h
    cases fs with
    | nil => simp [showMembers, quieted_nil]
    | cons p fs =>
      obtain ⟨n, v⟩ := p
      simp only [showMembers]
      split
      · exact quieted_append (quiet_ty env ctx name t acc v h.1) (quiet_members env ctx rest _ fs h.2)
      · exact quiet_members env ctx rest acc _ h.2
end

theorem quiet_parts (env : XmlEnv) (ctx : DCtx) (mss : List DMembers) : ∀ (fss : List Fields), mss.all quietMembers = true →
    Quieted (showParts env ctx mss fss).2 := by
  induction mss with
  | nil => intro fss _; cases fss <;> simp [showParts, quieted_nil]
  | cons ms mss ih =>
    intro fss h
    simp only [List.all_cons, Bool.and_eq_true] at h
    cases fss with
    | nil => simp [showParts, quieted_nil]
    | cons fs fss =>
      simp only [showParts]
      exact quieted_append (quiet_members env ctx ms [] fs h.1) (ih fss h.2)

theorem chain_quiet (t : String) (ht : t ∈ modelNames) : (classChain t).all quietMembers = true := by
  have h : ∀ t ∈ modelNames, (classChain t).all quietMembers = true := by decide +kernel
  exact h t ht

end Hwp
