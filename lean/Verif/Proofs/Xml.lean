/- Lemmas about XML serialisation. -/
import Verif.Spec.Xml
set_option linter.unusedSimpArgs false
namespace Hwp
open Spec

theorem lit_amp : lit "&amp;" = [0x26, 0x61, 0x6D, 0x70, 0x3B] := by decide
theorem lit_gt : lit "&gt;" = [0x26, 0x67, 0x74, 0x3B] := by decide
theorem lit_lt : lit "&lt;" = [0x26, 0x6C, 0x74, 0x3B] := by decide
theorem lit_quot : lit "&quot;" = [0x26, 0x71, 0x75, 0x6F, 0x74, 0x3B] := by decide
theorem lit_13 : lit "&#13;" = [0x26, 0x23, 0x31, 0x33, 0x3B] := by decide
theorem lit_10 : lit "&#10;" = [0x26, 0x23, 0x31, 0x30, 0x3B] := by decide
theorem lit_9 : lit "&#9;" = [0x26, 0x23, 0x39, 0x3B] := by decide

/-- Escaped form of one character of text. -/
def escT (c : Nat) : PyStr :=
  if c = 0x26 then [0x26, 0x61, 0x6D, 0x70, 0x3B]
  else if c = 0x3E then [0x26, 0x67, 0x74, 0x3B]
  else if c = 0x3C then [0x26, 0x6C, 0x74, 0x3B]
  else [c]

/-- Escaped form of one character of an attribute value; `q` says whether double
quotes are escaped. -/
def escA (q : Bool) (c : Nat) : PyStr :=
  if c = 0x26 then [0x26, 0x61, 0x6D, 0x70, 0x3B]
  else if c = 0x3E then [0x26, 0x67, 0x74, 0x3B]
  else if c = 0x3C then [0x26, 0x6C, 0x74, 0x3B]
  else if c = 0x0D then [0x26, 0x23, 0x31, 0x33, 0x3B]
  else if c = 0x0A then [0x26, 0x23, 0x31, 0x30, 0x3B]
  else if c = 0x09 then [0x26, 0x23, 0x39, 0x3B]
  else if c = 0x22 ∧ q = true then [0x26, 0x71, 0x75, 0x6F, 0x74, 0x3B]
  else [c]

theorem replaceChar_flatMap (c : Nat) (r : PyStr) (f : Nat → PyStr) (s : PyStr) :
    replaceChar c r (s.flatMap f) = s.flatMap (fun x => replaceChar c r (f x)) := by
  unfold replaceChar; rw [List.flatMap_assoc]

theorem flatMap_singleton_id (s : PyStr) : s.flatMap (fun x => [x]) = s := by
  induction s with
  | nil => rfl
  | cons c s ih => simp [List.flatMap_cons, ih]

theorem replaceChar_eq (c : Nat) (r : PyStr) (s : PyStr) :
    replaceChar c r s = s.flatMap (fun x => if x = c then r else [x]) := rfl

theorem saxEscape_text (s : PyStr) : saxEscape [] s = s.flatMap escT := by
  simp only [saxEscape, dictReplace, List.foldl_nil]
  rw [replaceChar_eq 0x26, replaceChar_flatMap, replaceChar_flatMap]
  congr 1
  funext x
  unfold escT
  by_cases h1 : x = 0x26
  · subst h1; decide
  by_cases h2 : x = 0x3E
  · subst h2; decide
  by_cases h3 : x = 0x3C
  · subst h3; decide
  simp [h1, h2, h3, replaceChar]

theorem saxEscape_attr (s : PyStr) : saxEscape xmlEntities s = s.flatMap (escA false) := by
  simp only [saxEscape, dictReplace, xmlEntities, List.foldl_nil, List.foldl_cons]
  rw [replaceChar_eq 0x26]
  simp only [replaceChar_flatMap]
  congr 1
  funext x
  unfold escA
  by_cases h1 : x = 0x26
  · subst h1; decide
  by_cases h2 : x = 0x3E
  · subst h2; decide
  by_cases h3 : x = 0x3C
  · subst h3; decide
  by_cases h4 : x = 0x0D
  · subst h4; decide
  by_cases h5 : x = 0x0A
  · subst h5; decide
  by_cases h6 : x = 0x09
  · subst h6; decide
  simp [h1, h2, h3, h4, h5, h6, replaceChar]

theorem replace_quote (s : PyStr) :
    replaceChar 0x22 (lit "&quot;") (s.flatMap (escA false)) = s.flatMap (escA true) := by
  rw [replaceChar_flatMap]
  congr 1
  funext x
  unfold escA
  by_cases h1 : x = 0x26
  · subst h1; decide
  by_cases h2 : x = 0x3E
  · subst h2; decide
  by_cases h3 : x = 0x3C
  · subst h3; decide
  by_cases h4 : x = 0x0D
  · subst h4; decide
  by_cases h5 : x = 0x0A
  · subst h5; decide
  by_cases h6 : x = 0x09
  · subst h6; decide
  by_cases h7 : x = 0x22
  · subst h7; decide
  simp [h1, h2, h3, h4, h5, h6, h7, replaceChar]

theorem noNul_flatMap (s : PyStr) (f : Nat → PyStr) (h0 : replaceChar 0 [] (f 0) = [])
    (h : ∀ c, c ≠ 0 → replaceChar 0 [] (f c) = f c) :
    replaceChar 0 [] (s.flatMap f) = (noNul s).flatMap f := by
  rw [replaceChar_flatMap]
  induction s with
  | nil => rfl
  | cons c s ih =>
    rw [List.flatMap_cons, ih]
    by_cases hc : c = 0
    · subst hc; rw [h0]; simp [noNul]
    · rw [h c hc]; simp [noNul, hc]

theorem replaceChar_id {c : Nat} {r : PyStr} {s : PyStr} (h : c ∉ s) : replaceChar c r s = s := by
  induction s with
  | nil => rfl
  | cons x s ih =>
    simp at h
    have := ih h.2
    simp only [replaceChar, List.flatMap_cons] at this ⊢
    rw [this, if_neg (fun e => h.1 e.symm)]; rfl

theorem escT_mem {c x : Nat} (h : x ∈ escT c) :
    x ∈ [0x26, 0x61, 0x6D, 0x70, 0x3B, 0x67, 0x74, 0x6C] ∨
      (x = c ∧ c ≠ 0x26 ∧ c ≠ 0x3E ∧ c ≠ 0x3C) := by
  unfold escT at h
  split at h
  · left; revert h; simp; omega
  split at h
  · left; revert h; simp; omega
  split at h
  · left; revert h; simp; omega
  · right; simp at h; exact ⟨h, by assumption, by assumption, by assumption⟩

theorem escA_mem {q : Bool} {c x : Nat} (h : x ∈ escA q c) :
    x ∈ [0x26, 0x61, 0x6D, 0x70, 0x3B, 0x67, 0x74, 0x6C, 0x23, 0x31, 0x33, 0x30, 0x39, 0x71, 0x75,
      0x6F] ∨
      (x = c ∧ c ≠ 0x26 ∧ c ≠ 0x3E ∧ c ≠ 0x3C ∧ c ≠ 0xD ∧ c ≠ 0xA ∧ c ≠ 9 ∧ ¬ (c = 0x22 ∧ q = true)) := by
  unfold escA at h
  split at h
  · left; revert h; simp; omega
  split at h
  · left; revert h; simp; omega
  split at h
  · left; revert h; simp; omega
  split at h
  · left; revert h; simp; omega
  split at h
  · left; revert h; simp; omega
  split at h
  · left; revert h; simp; omega
  split at h
  · left; revert h; simp; omega
  · right; simp at h; exact ⟨h, by assumption, by assumption, by assumption, by assumption,
      by assumption, by assumption, by assumption⟩

theorem escT_noNul (c : Nat) (hc : c ≠ 0) : replaceChar 0 [] (escT c) = escT c := by
  apply replaceChar_id
  intro h
  rcases escT_mem h with h | h
  · simp at h
  · omega

theorem escA_noNul (q : Bool) (c : Nat) (hc : c ≠ 0) : replaceChar 0 [] (escA q c) = escA q c := by
  apply replaceChar_id
  intro h
  rcases escA_mem h with h | h
  · simp at h
  · omega

/-- The serialised text. -/
theorem text_serialised (t : PyStr) :
    replaceChar 0 [] (saxEscape [] t) = (noNul t).flatMap escT := by
  rw [saxEscape_text, noNul_flatMap _ _ (by decide) escT_noNul]

/-- The quote character and the mode chosen for an attribute value. -/
def attrQuote (v : PyStr) : Nat × Bool :=
  if 0x22 ∈ v then if 0x27 ∈ v then (0x22, true) else (0x27, false) else (0x22, false)

theorem mem_escA_iff (s : PyStr) (x : Nat) (hx : x = 0x22 ∨ x = 0x27) :
    x ∈ s.flatMap (escA false) ↔ x ∈ s := by
  rw [List.mem_flatMap]
  constructor
  · rintro ⟨c, hc, h⟩
    rcases escA_mem h with h | ⟨h, _⟩
    · rcases hx with rfl | rfl <;> simp at h
    · rw [h]; exact hc
  · intro h
    refine ⟨x, h, ?_⟩
    rcases hx with rfl | rfl <;> decide

theorem mem_noNul (s : PyStr) (x : Nat) (hx : x ≠ 0) : x ∈ noNul s ↔ x ∈ s := by
  simp [noNul, hx]

/-- The serialised attribute value. -/
theorem attr_serialised (v : PyStr) :
    replaceChar 0 [] (quoteattr xmlEntities v) =
      [(attrQuote v).1] ++ (noNul v).flatMap (escA (attrQuote v).2) ++ [(attrQuote v).1] := by
  have key : ∀ (a : Nat) (s : PyStr), a ≠ 0 → replaceChar 0 [] ([a] ++ s ++ [a]) =
      [a] ++ replaceChar 0 [] s ++ [a] := by
    intro a s ha
    simp [replaceChar, List.flatMap_append, List.flatMap_cons, ha]
  have h0 : ∀ q, replaceChar 0 [] (escA q 0) = [] := by decide
  unfold quoteattr attrQuote
  simp only [saxEscape_attr, mem_escA_iff v _ (Or.inl rfl), mem_escA_iff v _ (Or.inr rfl)]
  by_cases h1 : 0x22 ∈ v
  · by_cases h2 : 0x27 ∈ v
    · simp only [if_pos h1, if_pos h2]
      rw [replace_quote, key _ _ (by decide), noNul_flatMap _ _ (h0 true) (escA_noNul true)]
    · simp only [if_pos h1, if_neg h2]
      rw [key _ _ (by decide), noNul_flatMap _ _ (h0 false) (escA_noNul false)]
  · simp only [if_neg h1]
    rw [key _ _ (by decide), noNul_flatMap _ _ (h0 false) (escA_noNul false)]

theorem attrQuote_noNul (v : PyStr) : attrQuote (noNul v) = attrQuote v := by
  simp [attrQuote, mem_noNul]

/-- The quote character does not occur between the quotes. -/
theorem quote_not_inside (v : PyStr) : (attrQuote v).1 ∉ v.flatMap (escA (attrQuote v).2) := by
  intro h
  rw [List.mem_flatMap] at h
  obtain ⟨c, hc, h⟩ := h
  unfold attrQuote at h
  split at h
  · split at h
    · rcases escA_mem h with h | ⟨h, hh⟩
      · simp at h
      · simp at h hh; omega
    · rename_i h27
      rcases escA_mem h with h | ⟨h, hh⟩
      · simp at h
      · simp at h; rw [← h] at hc; exact h27 hc
  · rename_i h22
    rcases escA_mem h with h | ⟨h, hh⟩
    · simp at h
    · simp at h; rw [← h] at hc; exact h22 hc

theorem attrQuote_quote (v : PyStr) : (attrQuote v).1 = 0x22 ∨ (attrQuote v).1 = 0x27 := by
  unfold attrQuote; split <;> (try split) <;> simp

/-! ### Unescaping -/

theorem unescapeGo_plain (c : Nat) (h : c ≠ 0x26) (s : PyStr) :
    unescapeGo none (c :: s) = (unescapeGo none s).map (c :: ·) := by
  rw [unescapeGo.eq_def]
  split <;> simp_all

theorem unescape_escT (c : Nat) (s : PyStr) :
    unescapeGo none (escT c ++ s) = (unescapeGo none s).map (c :: ·) := by
  unfold escT
  split
  · subst_vars; simp [unescapeGo, show reference [0x61, 0x6D, 0x70] = some 0x26 by decide]
  split
  · subst_vars; simp [unescapeGo, show reference [0x67, 0x74] = some 0x3E by decide]
  split
  · subst_vars; simp [unescapeGo, show reference [0x6C, 0x74] = some 0x3C by decide]
  · exact unescapeGo_plain c (by assumption) s

theorem unescape_escA (q : Bool) (c : Nat) (s : PyStr) :
    unescapeGo none (escA q c ++ s) = (unescapeGo none s).map (c :: ·) := by
  unfold escA
  split
  · subst_vars; simp [unescapeGo, show reference [0x61, 0x6D, 0x70] = some 0x26 by decide]
  split
  · subst_vars; simp [unescapeGo, show reference [0x67, 0x74] = some 0x3E by decide]
  split
  · subst_vars; simp [unescapeGo, show reference [0x6C, 0x74] = some 0x3C by decide]
  split
  · subst_vars; simp [unescapeGo, show reference [0x23, 0x31, 0x33] = some 0xD by decide]
  split
  · subst_vars; simp [unescapeGo, show reference [0x23, 0x31, 0x30] = some 0xA by decide]
  split
  · subst_vars; simp [unescapeGo, show reference [0x23, 0x39] = some 0x9 by decide]
  split
  · rename_i h; rw [h.1]; simp [unescapeGo, show reference [0x71, 0x75, 0x6F, 0x74] = some 0x22 by decide]
  · exact unescapeGo_plain c (by assumption) s

theorem unescape_text (t : PyStr) : unescape (t.flatMap escT) = some t := by
  unfold unescape
  induction t with
  | nil => rfl
  | cons c t ih => rw [List.flatMap_cons, unescape_escT, ih]; rfl

theorem unescape_attr (q : Bool) (t : PyStr) : unescape (t.flatMap (escA q)) = some t := by
  unfold unescape
  induction t with
  | nil => rfl
  | cons c t ih => rw [List.flatMap_cons, unescape_escA, ih]; rfl

end Hwp
