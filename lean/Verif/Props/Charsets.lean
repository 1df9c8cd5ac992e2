/- Property C19: language tokenisation. -/
import Verif.Model.Charsets
set_option linter.unusedSimpArgs false
namespace Hwp.Props
open Hwp

/-- Unicode blocks in ascending order and their language; characters up to `@`
(controls, punctuation, digits) are neutral, everything else is `other`. -/
def langBlocks : List (Nat × Nat × Lang) :=
  [(0x41, 0x24F, .en), (0x1100, 0x11FF, .ko), (0x2E80, 0x2FDF, .cn), (0x3000, 0x303F, .symbol),
   (0x3040, 0x30FF, .jp), (0x3130, 0x318F, .ko), (0x3400, 0x4DBF, .cn), (0x4E00, 0x9FFF, .cn),
   (0xA960, 0xA97F, .ko), (0xAC00, 0xD7FF, .ko), (0xF900, 0xFAFF, .cn)]

/-- The language of a character according to the blocks. -/
def specLang (c : Nat) : Option Lang :=
  if c ≤ 0x40 then none
  else match langBlocks.find? (fun b => b.1 ≤ c ∧ c ≤ b.2.1) with
    | some b => some b.2.2
    | none => some .other

/-- C19: the language of every character is that of its block. -/
theorem C19_lang_of_char (c : Nat) : getUnichrLang c = specLang c := by
  by_cases h0 : c ≤ 0x40
  · unfold specLang getUnichrLang
    repeat (first | rw [if_pos (by omega)] | rw [if_neg (by omega)])
  unfold specLang langBlocks
  rw [if_neg h0]
  by_cases h1 : 0x41 ≤ c ∧ c ≤ 0x24f
  · rw [List.find?_cons_of_pos (by simpa using h1)]
    unfold getUnichrLang
    repeat (first | rw [if_pos (by omega)] | rw [if_neg (by omega)])
  rw [List.find?_cons_of_neg (by simpa using h1)]
  by_cases h2 : 0x1100 ≤ c ∧ c ≤ 0x11ff
  · rw [List.find?_cons_of_pos (by simpa using h2)]
    unfold getUnichrLang
    repeat (first | rw [if_pos (by omega)] | rw [if_neg (by omega)])
  rw [List.find?_cons_of_neg (by simpa using h2)]
  by_cases h3 : 0x2e80 ≤ c ∧ c ≤ 0x2fdf
  · rw [List.find?_cons_of_pos (by simpa using h3)]
    unfold getUnichrLang
    repeat (first | rw [if_pos (by omega)] | rw [if_neg (by omega)])
  rw [List.find?_cons_of_neg (by simpa using h3)]
  by_cases h4 : 0x3000 ≤ c ∧ c ≤ 0x303f
  · rw [List.find?_cons_of_pos (by simpa using h4)]
    unfold getUnichrLang
    repeat (first | rw [if_pos (by omega)] | rw [if_neg (by omega)])
  rw [List.find?_cons_of_neg (by simpa using h4)]
  by_cases h5 : 0x3040 ≤ c ∧ c ≤ 0x30ff
  · rw [List.find?_cons_of_pos (by simpa using h5)]
    unfold getUnichrLang
    repeat (first | rw [if_pos (by omega)] | rw [if_neg (by omega)])
  rw [List.find?_cons_of_neg (by simpa using h5)]
  by_cases h6 : 0x3130 ≤ c ∧ c ≤ 0x318f
  · rw [List.find?_cons_of_pos (by simpa using h6)]
    unfold getUnichrLang
    repeat (first | rw [if_pos (by omega)] | rw [if_neg (by omega)])
  rw [List.find?_cons_of_neg (by simpa using h6)]
  by_cases h7 : 0x3400 ≤ c ∧ c ≤ 0x4dbf
  · rw [List.find?_cons_of_pos (by simpa using h7)]
    unfold getUnichrLang
    repeat (first | rw [if_pos (by omega)] | rw [if_neg (by omega)])
  rw [List.find?_cons_of_neg (by simpa using h7)]
  by_cases h8 : 0x4e00 ≤ c ∧ c ≤ 0x9fff
  · rw [List.find?_cons_of_pos (by simpa using h8)]
    unfold getUnichrLang
    repeat (first | rw [if_pos (by omega)] | rw [if_neg (by omega)])
  rw [List.find?_cons_of_neg (by simpa using h8)]
  by_cases h9 : 0xa960 ≤ c ∧ c ≤ 0xa97f
  · rw [List.find?_cons_of_pos (by simpa using h9)]
    unfold getUnichrLang
    repeat (first | rw [if_pos (by omega)] | rw [if_neg (by omega)])
  rw [List.find?_cons_of_neg (by simpa using h9)]
  by_cases h10 : 0xac00 ≤ c ∧ c ≤ 0xd7ff
  · rw [List.find?_cons_of_pos (by simpa using h10)]
    unfold getUnichrLang
    repeat (first | rw [if_pos (by omega)] | rw [if_neg (by omega)])
  rw [List.find?_cons_of_neg (by simpa using h10)]
  by_cases h11 : 0xf900 ≤ c ∧ c ≤ 0xfaff
  · rw [List.find?_cons_of_pos (by simpa using h11)]
    unfold getUnichrLang
    repeat (first | rw [if_pos (by omega)] | rw [if_neg (by omega)])
  rw [List.find?_cons_of_neg (by simpa using h11)]
  rw [List.find?_nil]
  unfold getUnichrLang
  repeat (first | rw [if_pos (by omega)] | rw [if_neg (by omega)])

example : specLang 0xAC00 = some .ko ∧ specLang 0x31 = none ∧ specLang 0x41 = some .en ∧
    specLang 0x4E00 = some .cn ∧ specLang 0x1F600 = some .other := by decide +kernel

/-- Adjacent tokens differ in language. -/
def TokensDiffer : List (Lang × PyStr) → Prop
  | a :: b :: t => a.1 ≠ b.1 ∧ TokensDiffer (b :: t)
  | _ => True

/-- The characters of the token fit its language: each is neutral or of that
language. -/
def TokenFits (t : Lang × PyStr) : Prop := ∀ c ∈ t.2, specLang c = none ∨ specLang c = some t.1

theorem tokenizeGo_spec (text : PyStr) : ∀ (buf : PyStr) (bl : Option Lang),
    (bl ≠ none → buf ≠ []) →
    (∀ c ∈ buf, specLang c = none ∨ specLang c = bl) →
    (((tokenizeGo buf bl text).map (·.2)).flatten = buf ++ text) ∧
    (∀ t ∈ tokenizeGo buf bl text, t.2 ≠ []) ∧
    TokensDiffer (tokenizeGo buf bl text) ∧
    (∀ t ∈ tokenizeGo buf bl text, TokenFits t) ∧
    (∀ l, bl = some l → ∃ s t, tokenizeGo buf bl text = (l, s) :: t) := by
  induction text with
  | nil =>
    intro buf bl h1 h2
    unfold tokenizeGo
    by_cases hb : buf ≠ []
    · simp only [hb, ne_eq, not_false_eq_true, if_true]
      refine ⟨by simp, by simpa using hb, trivial, ?_, ?_⟩
      · intro t ht c hc
        simp at ht; subst ht
        rcases h2 c hc with h | h
        · exact .inl h
        · cases bl with
          | none => exact .inl h
          | some l => exact .inr h
      · intro l hl; subst hl; exact ⟨_, _, rfl⟩
    · have hb' : buf = [] := by simpa using hb
      subst hb'
      simp only [ne_eq, not_true_eq_false, if_false]
      refine ⟨rfl, by simp, trivial, by simp, ?_⟩
      intro l hl; exact absurd rfl (h1 (by simp [hl]))
  | cons u rest ih =>
    intro buf bl h1 h2
    unfold tokenizeGo
    have hu := C19_lang_of_char u
    cases hl : getUnichrLang u with
    | none =>
      rw [hl] at hu
      obtain ⟨i1, i2, i3, i4, i5⟩ := ih (buf ++ [u]) bl (fun _ => by simp) (by
        intro c hc
        rcases List.mem_append.1 hc with hc | hc
        · exact h2 c hc
        · simp at hc; subst hc; exact .inl hu.symm)
      exact ⟨by rw [i1]; simp, i2, i3, i4, i5⟩
    | some lang =>
      rw [hl] at hu
      simp only
      by_cases hc : bl = some lang ∨ bl = none
      · rw [if_pos hc]
        obtain ⟨i1, i2, i3, i4, i5⟩ := ih (buf ++ [u]) (some lang) (fun _ => by simp) (by
          intro c hc'
          rcases List.mem_append.1 hc' with hc' | hc'
          · rcases h2 c hc' with h | h
            · exact .inl h
            · rcases hc with hc | hc
              · exact .inr (h.trans hc)
              · exact .inl (h.trans hc)
          · simp at hc'; subst hc'; exact .inr hu.symm)
        refine ⟨by rw [i1]; simp, i2, i3, i4, ?_⟩
        intro l hl'
        rcases hc with hc | hc
        · rw [hl'] at hc; injection hc with hc; subst hc; exact i5 _ rfl
        · rw [hc] at hl'; cases hl'
      · rw [if_neg hc]
        obtain ⟨i1, i2, i3, i4, i5⟩ := ih [u] (some lang) (fun _ => by simp) (by
          intro c hc'; simp at hc'; subst hc'; exact .inr hu.symm)
        obtain ⟨s, t, e⟩ := i5 lang rfl
        cases bl with
        | none => exact absurd (.inr rfl) hc
        | some b =>
          have hne : b ≠ lang := fun h => hc (.inl (by rw [h]))
          refine ⟨by simp [i1], ?_, ?_, ?_, ?_⟩
          · intro x hx
            rcases List.mem_cons.1 hx with rfl | hx
            · exact h1 (by simp)
            · exact i2 x hx
          · rw [e] at i3 ⊢; exact ⟨hne, i3⟩
          · intro x hx
            rcases List.mem_cons.1 hx with rfl | hx
            · exact h2
            · exact i4 x hx
          · intro l hl'; injection hl' with hl'; subst hl'; exact ⟨_, _, rfl⟩

/-- C19: the tokens joined give the text back, none is empty, adjacent ones have
different languages, and every character of a token is neutral or belongs to the
token's language. -/
theorem C19_tokenize (text : PyStr) :
    ((tokenizeByLang text).map (·.2)).flatten = text ∧
    (∀ t ∈ tokenizeByLang text, t.2 ≠ []) ∧
    TokensDiffer (tokenizeByLang text) ∧
    ∀ t ∈ tokenizeByLang text, TokenFits t := by
  obtain ⟨h1, h2, h3, h4, _⟩ := tokenizeGo_spec text [] none (by simp) (by simp)
  exact ⟨h1, h2, h3, h4⟩

example : tokenizeByLang [0x41, 0x20, 0x42, 0xAC00, 0x31, 0x43] =
    [(.en, [0x41, 0x20, 0x42]), (.ko, [0xAC00, 0x31]), (.en, [0x43])] := by decide +kernel

/-- Every token but the first begins with a character that has a language. -/
def LaterTokensBegin : List (Lang × PyStr) → Prop
  | _ :: ts => ∀ t ∈ ts, ∃ c s, t.2 = c :: s ∧ specLang c ≠ none
  | [] => True

/-- A token of neutral characters only is Korean and the only token. -/
def NeutralIsKo (ts : List (Lang × PyStr)) : Prop :=
  ∀ t ∈ ts, (∀ c ∈ t.2, specLang c = none) → ts = [(.ko, t.2)]

private theorem tokenizeGo_token (l : Lang) (s : PyStr) : ∀ (buf rest : PyStr), TokenFits (l, s) →
    tokenizeGo buf (some l) (s ++ rest) = tokenizeGo (buf ++ s) (some l) rest := by
  induction s with
  | nil => intro buf rest _; simp
  | cons c s ih =>
    intro buf rest h
    have hc := h c (by simp)
    have ih := ih (buf ++ [c]) rest (fun d hd => h d (List.mem_cons_of_mem _ hd))
    simp only [List.cons_append, tokenizeGo, C19_lang_of_char]
    rcases hc with hc | hc <;> simp [hc, ih]

private theorem tokenizeGo_first (l : Lang) (s : PyStr) : ∀ (buf rest : PyStr), TokenFits (l, s) →
    tokenizeGo buf none (s ++ rest) =
      tokenizeGo (buf ++ s) (if ∀ c ∈ s, specLang c = none then none else some l) rest := by
  induction s with
  | nil => intro buf rest _; simp
  | cons c s ih =>
    intro buf rest h
    have hc := h c (by simp)
    have hs : TokenFits (l, s) := fun d hd => h d (List.mem_cons_of_mem _ hd)
    have ih := ih (buf ++ [c]) rest hs
    simp only [List.cons_append, tokenizeGo, C19_lang_of_char]
    rcases hc with hc | hc
    · simp [hc, ih]
    · simp [hc, tokenizeGo_token l s _ rest hs]

private theorem tokenizeGo_rest (ts : List (Lang × PyStr)) : ∀ (l : Lang) (buf : PyStr), buf ≠ [] →
    (∀ t ∈ ts, TokenFits t ∧ ∃ c s, t.2 = c :: s ∧ specLang c ≠ none) → TokensDiffer ((l, buf) :: ts) →
    tokenizeGo buf (some l) (ts.map (·.2)).flatten = (l, buf) :: ts := by
  induction ts with
  | nil => intro l buf hb _ _; simp [tokenizeGo, hb, orKo]
  | cons t ts ih =>
    intro l buf hb h hd
    obtain ⟨m, s⟩ := t
    obtain ⟨hf, c, s', hs, hc⟩ := h (m, s) (by simp)
    dsimp only at hs
    subst hs
    have hm : specLang c = some m := by
      rcases hf c (by simp) with h | h
      · exact absurd h hc
      · exact h
    have hne : l ≠ m := hd.1
    simp only [List.map_cons, List.flatten_cons, List.cons_append, tokenizeGo, C19_lang_of_char, hm]
    rw [if_neg (by simp [hne]), tokenizeGo_token m s' _ _ (fun d hd => hf d (by simp [hd]))]
    rw [List.singleton_append, ih m (c :: s') (by simp) (fun t ht => h t (by simp [ht])) hd.2]
    simp [orKo]

private theorem tokenizeGo_begin (text : PyStr) : ∀ (buf : PyStr) (bl : Option Lang),
    (∀ c ∈ buf, bl = none → specLang c = none) → (∀ l, bl = some l → ∃ c ∈ buf, specLang c ≠ none) →
    LaterTokensBegin (tokenizeGo buf bl text) ∧ NeutralIsKo (tokenizeGo buf bl text) ∧
    ((∃ c s, buf = c :: s ∧ specLang c ≠ none) →
      ∀ t ∈ tokenizeGo buf bl text, ∃ c s, t.2 = c :: s ∧ specLang c ≠ none) := by
  induction text with
  | nil =>
    intro buf bl h1 h2
    simp only [tokenizeGo]
    split
    · refine ⟨by simp [LaterTokensBegin], ?_, ?_⟩
      · intro t ht
        simp only [List.mem_singleton] at ht
        subst ht
        intro hn
        cases bl with
        | none => simp [orKo]
        | some l =>
          obtain ⟨c, hc, hc'⟩ := h2 l rfl
          exact absurd (hn c hc) hc'
      · intro hb t ht
        simp only [List.mem_singleton] at ht
        subst ht
        exact hb
    · exact ⟨trivial, by simp [NeutralIsKo], by simp⟩
  | cons u rest ih =>
    intro buf bl h1 h2
    simp only [tokenizeGo, C19_lang_of_char]
    have hext : ∀ x : PyStr, (∃ c s, buf = c :: s ∧ specLang c ≠ none) →
        ∃ c s, buf ++ x = c :: s ∧ specLang c ≠ none := by
      rintro x ⟨c, s, rfl, hc⟩
      exact ⟨c, s ++ x, rfl, hc⟩
    cases hu : specLang u with
    | none =>
      dsimp only
      obtain ⟨i1, i2, i3⟩ := ih (buf ++ [u]) bl (by
        intro c hc hb
        rcases List.mem_append.1 hc with hc | hc
        · exact h1 c hc hb
        · simp only [List.mem_singleton] at hc; subst hc; exact hu) (by
        intro l hl
        obtain ⟨c, hc, hc'⟩ := h2 l hl
        exact ⟨c, by simp [hc], hc'⟩)
      exact ⟨i1, i2, fun hb => i3 (hext _ hb)⟩
    | some lang =>
      dsimp only
      split
      · obtain ⟨i1, i2, i3⟩ := ih (buf ++ [u]) (some lang) (by simp) (by
          intro l _
          exact ⟨u, by simp, by simp [hu]⟩)
        exact ⟨i1, i2, fun hb => i3 (hext _ hb)⟩
      · rename_i hc
        obtain ⟨i1, i2, i3⟩ := ih [u] (some lang) (by simp) (by
          intro l _
          exact ⟨u, by simp, by simp [hu]⟩)
        have i3 := i3 ⟨u, [], rfl, by simp [hu]⟩
        refine ⟨i3, ?_, ?_⟩
        · intro t ht hn
          rcases List.mem_cons.1 ht with rfl | ht
          · cases bl with
            | none => exact absurd (.inr rfl) hc
            | some l =>
              obtain ⟨c, hc, hc'⟩ := h2 l rfl
              exact absurd (hn c hc) hc'
          · obtain ⟨c, s, e, hc'⟩ := i3 t ht
            exact absurd (hn c (by simp [e])) hc'
        · intro hb t ht
          rcases List.mem_cons.1 ht with rfl | ht
          · exact hb
          · exact i3 t ht

/-- C19: the tokens are determined by the text: neutral characters belong to the
token before them (those at the beginning to the first token), and text of neutral
characters only is Korean; any list of tokens with these properties and those of
`C19_tokenize` is the result. -/
theorem C19_unique (text : PyStr) (ts : List (Lang × PyStr)) :
    tokenizeByLang text = ts ↔
      (ts.map (·.2)).flatten = text ∧ (∀ t ∈ ts, t.2 ≠ []) ∧ TokensDiffer ts ∧ (∀ t ∈ ts, TokenFits t) ∧
      LaterTokensBegin ts ∧ NeutralIsKo ts := by
  constructor
  · rintro rfl
    obtain ⟨h1, h2, h3, h4⟩ := C19_tokenize text
    obtain ⟨h5, h6, -⟩ := tokenizeGo_begin text [] none (by simp) (by simp)
    exact ⟨h1, h2, h3, h4, h5, h6⟩
  · rintro ⟨rfl, h2, h3, h4, h5, h6⟩
    cases ts with
    | nil => rfl
    | cons t ts =>
      obtain ⟨l, s⟩ := t
      unfold tokenizeByLang
      have hs : s ≠ [] := h2 (l, s) (by simp)
      have hrest : ∀ t ∈ ts, TokenFits t ∧ ∃ c s, t.2 = c :: s ∧ specLang c ≠ none :=
        fun t ht => ⟨h4 t (by simp [ht]), h5 t ht⟩
      simp only [List.map_cons, List.flatten_cons]
      rw [tokenizeGo_first l s [] _ (h4 (l, s) (by simp)), List.nil_append]
      by_cases hn : ∀ c ∈ s, specLang c = none
      · have he := h6 (l, s) (by simp) hn
        simp only [List.cons.injEq, Prod.mk.injEq, and_true] at he
        obtain ⟨rfl, rfl⟩ := he
        rw [if_pos hn]
        simp [tokenizeGo, hs, orKo]
      · rw [if_neg hn]
        exact tokenizeGo_rest ts l s hs hrest h3

example : tokenizeByLang [0x31, 0x20] = [(.ko, [0x31, 0x20])] ∧
    tokenizeByLang [0x31, 0x41, 0x2E, 0xAC00] = [(.en, [0x31, 0x41, 0x2E]), (.ko, [0xAC00])] := by decide +kernel

end Hwp.Props
