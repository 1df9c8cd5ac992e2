import Verif.Proofs.Format
import Verif.Spec.Escapes
/-! Lemmas about escapes in formats. -/
set_option autoImplicit false
set_option linter.unusedSimpArgs false
namespace Hwp
open Spec

theorem simpleEscape_iff (e x : Nat) : simpleEscape e = some x ↔ (e, x) ∈ escapeTable := by
  unfold simpleEscape escapeTable
  simp only [List.mem_cons, Prod.mk.injEq, List.not_mem_nil, or_false]
  constructor
  · intro h
    repeat' split at h
    all_goals simp only [Option.some.injEq, reduceCtorEq] at h
    all_goals omega
  · intro h
    rcases h with ⟨rfl, rfl⟩ | ⟨rfl, rfl⟩ | ⟨rfl, rfl⟩ | ⟨rfl, rfl⟩ | ⟨rfl, rfl⟩ | ⟨rfl, rfl⟩ | ⟨rfl, rfl⟩ | ⟨rfl, rfl⟩ | ⟨rfl, rfl⟩ | ⟨rfl, rfl⟩ <;> rfl

theorem simpleEscape_none (e : Nat) (h : ∀ x, (e, x) ∉ escapeTable) : simpleEscape e = none := by
  cases hs : simpleEscape e with
  | none => rfl
  | some x => exact absurd ((simpleEscape_iff e x).1 hs) (h x)

theorem hexWidth_iff (e w : Nat) : hexWidth e = some w ↔ (e, w) ∈ hexLetters := by
  unfold hexWidth hexLetters
  simp only [List.mem_cons, Prod.mk.injEq, List.not_mem_nil, or_false]
  constructor
  · intro h
    repeat' split at h
    all_goals simp only [Option.some.injEq, reduceCtorEq] at h
    all_goals omega
  · intro h
    rcases h with ⟨rfl, rfl⟩ | ⟨rfl, rfl⟩ | ⟨rfl, rfl⟩ <;> rfl

theorem hexWidth_none (e : Nat) (h : ∀ x, (e, x) ∉ hexLetters) : hexWidth e = none := by
  cases hs : hexWidth e with
  | none => rfl
  | some x => exact absurd ((hexWidth_iff e x).1 hs) (h x)

theorem octalDigit_iff (c : Nat) : octalDigit c = true ↔ ∃ d, d < 8 ∧ c = octChar d := by
  unfold octalDigit octChar
  rw [Bool.and_eq_true, decide_eq_true_iff, decide_eq_true_iff]
  constructor
  · intro h
    exact ⟨c - 0x30, by omega, by omega⟩
  · rintro ⟨d, h1, h2⟩
    omega

theorem hexChar_value (c d : Nat) (h : HexChar c d) : hexDigitValue c = some d := by
  unfold hexDigitValue
  rcases h with ⟨h1, rfl⟩ | ⟨h1, h2, rfl | rfl⟩
  · rw [if_pos (by omega)]; congr 1; omega
  · rw [if_neg (by omega), if_pos (by omega)]; congr 1; omega
  · rw [if_neg (by omega), if_neg (by omega), if_pos (by omega)]; congr 1; omega

theorem hexChar_ascii (c d : Nat) (h : HexChar c d) : c < 0x80 := by
  rcases h with ⟨h1, rfl⟩ | ⟨h1, h2, rfl | rfl⟩ <;> omega

theorem foldlM_hex (cs ds : List Nat) (h : List.Forall₂ HexChar cs ds) : ∀ n : Nat,
    cs.foldlM (fun acc c => (hexDigitValue c).map fun d => 16 * acc + d) n = some (ds.foldl (fun n d => 16 * n + d) n) := by
  induction h with
  | nil => intro n; rfl
  | @cons c d cs ds h1 h2 ih =>
    intro n
    rw [List.foldlM_cons, hexChar_value c d h1, List.foldl_cons]
    exact ih _

theorem forall2_length (cs ds : List Nat) (h : List.Forall₂ HexChar cs ds) : cs.length = ds.length := by
  induction h with
  | nil => rfl
  | cons _ _ ih => simp [ih]

theorem escapeNumber_hex (w : Nat) (cs ds s : List Nat) (h : List.Forall₂ HexChar cs ds) (hw : ds.length = w) :
    escapeNumber w (cs ++ s) = some (ofDigits 16 ds) := by
  have hl : cs.length = w := (forall2_length cs ds h).trans hw
  have ht : (cs ++ s).take w = cs := List.take_left' hl
  unfold escapeNumber
  rw [ht, if_pos hl]
  exact foldlM_hex cs ds h 0

theorem foldl_oct (ds : List Nat) : ∀ n : Nat,
    (ds.map octChar).foldl (fun n d => 8 * n + (d - 0x30)) n = ds.foldl (fun n d => 8 * n + d) n := by
  induction ds with
  | nil => intro n; rfl
  | cons d ds ih =>
    intro n
    rw [List.map_cons, List.foldl_cons, List.foldl_cons, ih]
    have : octChar d - 0x30 = d := by unfold octChar; omega
    rw [this]

theorem takeWhile_oct (ds : List Nat) (s : PyStr) (k : Nat) (hd : ∀ d ∈ ds, d < 8) (hk : ds.length ≤ k)
    (hs : ds.length < k → ∀ d, d < 8 → s.head? ≠ some (octChar d)) :
    ((ds.map octChar ++ s).take k).takeWhile octalDigit = ds.map octChar := by
  induction ds generalizing k with
  | nil =>
    cases k with
    | zero => rfl
    | succ k =>
      cases s with
      | nil => rfl
      | cons c s =>
        have : octalDigit c = false := by
          cases ho : octalDigit c with
          | false => rfl
          | true =>
            obtain ⟨d, h1, h2⟩ := (octalDigit_iff c).1 ho
            exact absurd (by rw [h2]; rfl) (hs (by simp) d h1)
        simp [this]
  | cons d ds ih =>
    cases k with
    | zero => simp at hk
    | succ k =>
      have h1 : octalDigit (octChar d) = true := (octalDigit_iff _).2 ⟨d, hd d (by simp), rfl⟩
      rw [List.map_cons, List.cons_append, List.take_succ_cons, List.takeWhile_cons, if_pos h1,
        ih k (fun x hx => hd x (by simp [hx])) (by simpa using hk) (fun h => hs (by simpa using h))]

theorem octChar_facts : ∀ d, d < 8 → octChar d ≠ 10 ∧ simpleEscape (octChar d) = none ∧ octalDigit (octChar d) = true := by
  decide

theorem hexLetter_facts (e w : Nat) (h : (e, w) ∈ hexLetters) :
    e ≠ 10 ∧ simpleEscape e = none ∧ octalDigit e = false ∧ e < 0x80 := by
  simp only [hexLetters, List.mem_cons, Prod.mk.injEq, List.not_mem_nil, or_false] at h
  rcases h with ⟨rfl, rfl⟩ | ⟨rfl, rfl⟩ | ⟨rfl, rfl⟩ <;> decide

theorem escapeTable_facts (e x : Nat) (h : (e, x) ∈ escapeTable) : e ≠ 10 ∧ e < 0x80 := by
  simp only [escapeTable, List.mem_cons, Prod.mk.injEq, List.not_mem_nil, or_false] at h
  omega

theorem takeWhile_name (name s : PyStr) (h : ∀ c ∈ name, c < 0x80 ∧ c ≠ 0x7d) :
    (name ++ 0x7d :: s).takeWhile (· ≠ 0x7d) = name := by
  induction name with
  | nil => simp
  | cons c cs ih =>
    rw [List.cons_append, List.takeWhile_cons, if_pos (by simpa using (h c (by simp)).2), ih (fun x hx => h x (by simp [hx]))]

theorem unescaped_chars (names : PyStr → Option Nat) (s t : PyStr) (h : Unescaped names s t) :
    unescapeChars names s = .ok t := by
  induction h with
  | nil => rw [unescapeChars.eq_def]
  | plain c s t h1 h2 _ ih => rw [unescape_char names c s h2, ih]; rfl
  | simple e x s t h1 _ ih =>
    rw [unescape_simple names e x s ((simpleEscape_iff e x).2 h1) (escapeTable_facts e x h1).1, ih]; rfl
  | join s t _ ih =>
    rw [unescapeChars.eq_def]
    simp only [ne_eq, not_true_eq_false, if_false, if_true, ih]
  | octal ds s t h1 h2 h3 h4 _ ih =>
    cases ds with
    | nil => exact absurd rfl h1
    | cons d ds =>
      obtain ⟨f1, f2, f3⟩ := octChar_facts d (h3 d (by simp))
      have ht := takeWhile_oct ds s 2 (fun x hx => h3 x (by simp [hx])) (by simpa using h2) (fun h => h4 (by simp only [List.length_cons]; omega))
      show unescapeChars names (0x5c :: octChar d :: (ds.map octChar ++ s)) = _
      rw [unescapeChars.eq_def]
      simp only [ne_eq, not_true_eq_false, if_false, f1, f2, f3, if_true, ht]
      have hdrop : (ds.map octChar ++ s).drop (ds.map octChar).length = s := List.drop_left
      rw [hdrop, ih]
      have : (octChar d :: ds.map octChar).foldl (fun n d => 8 * n + (d - 0x30)) 0 = ofDigits 8 (d :: ds) := foldl_oct (d :: ds) 0
      rw [this]
      rfl
  | hex e w cs ds s t h1 h2 h3 h4 _ ih =>
    obtain ⟨f1, f2, f3, -⟩ := hexLetter_facts e w h1
    have hl : cs.length = w := (forall2_length cs ds h2).trans h3
    have hdrop : (cs ++ s).drop w = s := List.drop_left' hl
    rw [unescapeChars.eq_def]
    simp only [ne_eq, not_true_eq_false, if_false, f1, f2, f3, Bool.false_eq_true, (hexWidth_iff e w).2 h1,
      escapeNumber_hex w cs ds s h2 h3, h4, if_true, hdrop, ih]
    rfl
  | named name n s t h1 h2 h3 _ ih =>
    have ht := takeWhile_name name s h2
    have hget : (0x7b :: (name ++ 0x7d :: s))[name.length + 1]? = some 0x7d := by simp
    have hdrop : (0x7b :: (name ++ 0x7d :: s)).drop (name.length + 2) = s := by
      rw [List.drop_succ_cons, ← List.drop_drop, List.drop_left]
      rfl
    have f2 : simpleEscape 0x4e = none := rfl
    have f3 : octalDigit 0x4e = false := rfl
    have f4 : hexWidth 0x4e = none := rfl
    rw [unescapeChars.eq_def]
    simp only [ne_eq, not_true_eq_false, if_false, f2, f3, f4, Bool.false_eq_true, if_true, Nat.reduceEqDiff, List.drop_succ_cons,
      List.drop_zero]
    have ht' : List.takeWhile (fun x => decide ¬x = 125) (name ++ 0x7d :: s) = name := ht
    rw [ht', if_pos ⟨rfl, h1, hget⟩, h3]
    dsimp only
    rw [show List.drop (name.length + 1) (name ++ 0x7d :: s) = s from hdrop, ih]
    rfl
  | other e s t h0 h1 h2 h3 h4 h5 _ ih =>
    have f3 : octalDigit e = false := by
      cases ho : octalDigit e with
      | false => rfl
      | true =>
        obtain ⟨d, g1, g2⟩ := (octalDigit_iff e).1 ho
        exact absurd g2 (h5 d g1)
    rw [unescapeChars.eq_def]
    simp only [ne_eq, not_true_eq_false, if_false, h1, h2, simpleEscape_none e h3, hexWidth_none e h4, f3, Bool.false_eq_true, ih]
    rfl

theorem unescaped_ascii (names : PyStr → Option Nat) (s t : PyStr) (h : Unescaped names s t) : ∀ c ∈ s, c < 0x80 := by
  have forall2 : ∀ cs ds : List Nat, List.Forall₂ HexChar cs ds → ∀ c ∈ cs, c < 0x80 := by
    intro cs ds h
    induction h with
    | nil => simp
    | @cons c d cs ds h1 h2 ih =>
      intro x hx
      rcases List.mem_cons.1 hx with rfl | hx
      · exact hexChar_ascii _ _ h1
      · exact ih x hx
  induction h with
  | nil => simp
  | plain c s t h1 h2 _ ih =>
    intro x hx
    rcases List.mem_cons.1 hx with rfl | hx
    · exact h1
    · exact ih x hx
  | simple e y s t h1 _ ih =>
    intro x hx
    simp only [List.mem_cons] at hx
    rcases hx with rfl | rfl | hx
    · decide
    · exact (escapeTable_facts _ y h1).2
    · exact ih x hx
  | join s t _ ih =>
    intro x hx
    simp only [List.mem_cons] at hx
    rcases hx with rfl | rfl | hx
    · decide
    · decide
    · exact ih x hx
  | octal ds s t h1 h2 h3 h4 _ ih =>
    intro x hx
    simp only [List.mem_cons, List.mem_append, List.mem_map] at hx
    rcases hx with rfl | ⟨d, hd, rfl⟩ | hx
    · decide
    · have := h3 d hd
      unfold octChar
      omega
    · exact ih x hx
  | hex e w cs ds s t h1 h2 h3 h4 _ ih =>
    intro x hx
    simp only [List.mem_cons, List.mem_append] at hx
    rcases hx with rfl | rfl | hx | hx
    · decide
    · exact (hexLetter_facts _ w h1).2.2.2
    · exact forall2 cs ds h2 x hx
    · exact ih x hx
  | named name n s t h1 h2 h3 _ ih =>
    intro x hx
    simp only [List.mem_cons, List.mem_append] at hx
    rcases hx with rfl | rfl | rfl | hx | rfl | hx
    · decide
    · decide
    · decide
    · exact (h2 x hx).1
    · decide
    · exact ih x hx
  | other e s t h0 h1 h2 h3 h4 h5 _ ih =>
    intro x hx
    simp only [List.mem_cons] at hx
    rcases hx with rfl | rfl | hx
    · decide
    · exact h0
    · exact ih x hx

end Hwp
