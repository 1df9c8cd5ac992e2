/- Lemmas about formats. -/
import Verif.Spec.Format
import Verif.Proofs.Pictures
import Verif.Proofs.Commands
import Verif.Proofs.Utf8
set_option autoImplicit false
set_option linter.unusedSimpArgs false
set_option linter.unusedVariables false
namespace Hwp
open Spec

/-! ### The codec -/

theorem hexDigitValue_escDigit (d : Nat) (h : d < 16) : hexDigitValue (escDigit d) = some d := by
  have : ∀ d < 16, hexDigitValue (escDigit d) = some d := by decide
  exact this d h

theorem escHex_length (w n : Nat) : (escHex w n).length = w := by
  induction w generalizing n with
  | zero => rfl
  | succ w ih => rw [escHex, List.length_append, ih]; rfl

theorem escHex_fold (w : Nat) : ∀ n, (escHex w n).foldlM (fun acc c => (hexDigitValue c).map fun d => 16 * acc + d) 0 = some (n % 16 ^ w) := by
  induction w with
  | zero => intro n; simp [escHex, Nat.mod_one]
  | succ w ih =>
    intro n
    rw [escHex, List.foldlM_append, ih]
    simp only [List.foldlM_cons, List.foldlM_nil, Option.bind_eq_bind, Option.bind_some, hexDigitValue_escDigit _ (Nat.mod_lt n (by decide : 0 < 16)),
      Option.map_some, Option.pure_def, Option.some.injEq]
    rw [Nat.pow_succ, Nat.mul_comm (16 ^ w) 16, Nat.mod_mul]
    omega

theorem escapeNumber_escHex (w n : Nat) (rest : PyStr) (h : n < 16 ^ w) : escapeNumber w (escHex w n ++ rest) = some n := by
  have ht : (escHex w n ++ rest).take w = escHex w n := by
    rw [List.take_append_of_le_length (by rw [escHex_length])]
    exact List.take_of_length_le (by rw [escHex_length])
  unfold escapeNumber
  rw [ht, if_pos (escHex_length w n), escHex_fold, Nat.mod_eq_of_lt h]

theorem unescape_hex (names : PyStr → Option Nat) (e w n : Nat) (rest : PyStr) (he : hexWidth e = some w) (hn : n < 16 ^ w)
    (hc : n < 0x110000) :
    unescapeChars names ([0x5c, e] ++ escHex w n ++ rest) = consOk n (unescapeChars names rest) := by
  have h1 : e ≠ 10 ∧ simpleEscape e = none ∧ octalDigit e = false := by
    have : e = 0x78 ∨ e = 0x75 ∨ e = 0x55 := by
      unfold hexWidth at he
      by_cases h1 : e = 0x78
      · exact Or.inl h1
      · by_cases h2 : e = 0x75
        · exact Or.inr (Or.inl h2)
        · by_cases h3 : e = 0x55
          · exact Or.inr (Or.inr h3)
          · simp [h1, h2, h3] at he
    rcases this with rfl | rfl | rfl <;> decide
  have hd : (escHex w n ++ rest).drop w = rest := by
    have := List.drop_left' (l₁ := escHex w n) (l₂ := rest) (escHex_length w n)
    exact this
  show unescapeChars names (0x5c :: e :: (escHex w n ++ rest)) = _
  rw [unescapeChars.eq_def]
  simp only [ne_eq, not_true_eq_false, if_false, h1.1, h1.2.1, h1.2.2, Bool.false_eq_true, he,
    escapeNumber_escHex w n rest hn, hc, if_true, hd]

theorem unescape_simple (names : PyStr → Option Nat) (e x : Nat) (rest : PyStr) (he : simpleEscape e = some x) (h10 : e ≠ 10) :
    unescapeChars names (0x5c :: e :: rest) = consOk x (unescapeChars names rest) := by
  rw [unescapeChars.eq_def]
  simp only [ne_eq, not_true_eq_false, if_false, h10, he]

theorem unescape_char (names : PyStr → Option Nat) (c : Nat) (rest : PyStr) (h : c ≠ 0x5c) :
    unescapeChars names (c :: rest) = consOk c (unescapeChars names rest) := by
  rw [unescapeChars.eq_def]
  simp only [ne_eq, h, not_false_eq_true, if_true]

theorem unescape_escChar (names : PyStr → Option Nat) (c : Nat) (rest : PyStr) (hc : c < 0x110000) :
    unescapeChars names (escChar c ++ rest) = consOk c (unescapeChars names rest) := by
  unfold escChar
  split
  · next h => subst h; exact unescape_simple names 0x5c 0x5c rest rfl (by decide)
  · next h1 =>
    split
    · next h => subst h; exact unescape_simple names 0x74 9 rest rfl (by decide)
    · split
      · next h => subst h; exact unescape_simple names 0x6e 10 rest rfl (by decide)
      · split
        · next h => subst h; exact unescape_simple names 0x72 13 rest rfl (by decide)
        · split
          · exact unescape_char names c rest h1
          · split
            · next h => exact unescape_hex names 0x78 2 c rest rfl (by simpa using h) hc
            · split
              · next h => exact unescape_hex names 0x75 4 c rest rfl (by simpa using h) hc
              · exact unescape_hex names 0x55 8 c rest rfl (by omega) hc

theorem unescapeChars_escape (names : PyStr → Option Nat) (s : PyStr) (h : ∀ c ∈ s, c < 0x110000) :
    unescapeChars names (unicodeEscape s) = .ok s := by
  induction s with
  | nil => rw [unicodeEscape, List.flatMap_nil, unescapeChars.eq_def]
  | cons c s ih =>
    have : unicodeEscape (c :: s) = escChar c ++ unicodeEscape s := rfl
    rw [this, unescape_escChar names c _ (h c (by simp)), ih (fun x hx => h x (by simp [hx]))]
    rfl

theorem escDigit_ascii (d : Nat) (h : d < 16) : escDigit d < 0x80 := by unfold escDigit; split <;> omega

theorem escHex_ascii (w : Nat) : ∀ n, ∀ c ∈ escHex w n, c < 0x80 := by
  induction w with
  | zero => intro n c h; cases h
  | succ w ih =>
    intro n c h
    rw [escHex, List.mem_append] at h
    rcases h with h | h
    · exact ih _ c h
    · rw [List.mem_singleton] at h
      rw [h]
      exact escDigit_ascii _ (Nat.mod_lt _ (by decide))

theorem unicodeEscape_ascii (s : PyStr) : ∀ c ∈ unicodeEscape s, c < 0x80 := by
  intro c hc
  obtain ⟨x, _, hx⟩ := List.mem_flatMap.1 hc
  unfold escChar at hx
  split at hx
  · simp at hx; omega
  · split at hx
    · simp at hx; omega
    · split at hx
      · simp at hx; omega
      · split at hx
        · simp at hx; omega
        · split at hx
          · simp at hx; omega
          · split at hx
            · rw [List.mem_append] at hx
              rcases hx with h | h
              · simp at h; omega
              · exact escHex_ascii _ _ c h
            · split at hx
              · rw [List.mem_append] at hx
                rcases hx with h | h
                · simp at h; omega
                · exact escHex_ascii _ _ c h
              · rw [List.mem_append] at hx
                rcases hx with h | h
                · simp at h; omega
                · exact escHex_ascii _ _ c h

/-- The bytes of one character. -/
theorem utf8Char_bytes (c : Nat) (b : Bytes) (h : utf8Char c = .ok b) :
    (c < 0x80 ∧ b.map UInt8.toNat = [c]) ∨ (0x80 ≤ c ∧ 2 ≤ b.length ∧ ∀ x ∈ b.map UInt8.toNat, 0x80 ≤ x) := by
  unfold utf8Char at h
  have hto : ∀ n, n < 256 → (UInt8.ofNat n).toNat = n := by
    intro n hn
    simp [UInt8.toNat_ofNat']
    omega
  split at h
  · next hc =>
    left
    injection h with h
    subst h
    exact ⟨hc, by simp [hto c (by omega)]⟩
  · right
    refine ⟨by omega, ?_⟩
    split at h
    · injection h with h
      subst h
      refine ⟨by simp, ?_⟩
      intro x hx
      simp only [List.map_cons, List.map_nil, List.mem_cons, List.not_mem_nil, or_false] at hx
      rcases hx with rfl | rfl <;> rw [hto _ (by omega)] <;> omega
    · split at h
      · cases h
      · split at h
        · injection h with h
          subst h
          refine ⟨by simp, ?_⟩
          intro x hx
          simp only [List.map_cons, List.map_nil, List.mem_cons, List.not_mem_nil, or_false] at hx
          rcases hx with rfl | rfl | rfl <;> rw [hto _ (by omega)] <;> omega
        · split at h
          · injection h with h
            subst h
            refine ⟨by simp, ?_⟩
            intro x hx
            simp only [List.map_cons, List.map_nil, List.mem_cons, List.not_mem_nil, or_false] at hx
            rcases hx with rfl | rfl | rfl | rfl <;> rw [hto _ (by omega)] <;> omega
          · cases h

theorem utf8Encode_cons (c : Nat) (s : PyStr) (b : Bytes) (h : utf8Encode (c :: s) = .ok b) :
    ∃ b1 b2, utf8Char c = .ok b1 ∧ utf8Encode s = .ok b2 ∧ b = b1 ++ b2 := by
  rw [utf8Encode] at h
  cases h1 : utf8Char c with
  | error e => rw [h1] at h; cases h
  | ok b1 =>
    cases h2 : utf8Encode s with
    | error e => rw [h1, h2] at h; cases h
    | ok b2 =>
      rw [h1, h2] at h
      injection h with h
      exact ⟨b1, b2, rfl, rfl, h.symm⟩

theorem utf8_ascii_bytes (s : PyStr) (h : ∀ c ∈ s, c < 0x80) : ∃ b, utf8Encode s = .ok b ∧ b.map UInt8.toNat = s := by
  obtain ⟨b, hb⟩ := (utf8Encode_ok s).2 (fun c hc => Or.inl (by have := h c hc; omega))
  refine ⟨b, hb, ?_⟩
  induction s generalizing b with
  | nil => injection hb with hb; subst hb; rfl
  | cons c s ih =>
    obtain ⟨b1, b2, h1, h2, rfl⟩ := utf8Encode_cons c s b hb
    rw [List.map_append, ih (fun x hx => h x (by simp [hx])) b2 h2]
    rcases utf8Char_bytes c b1 h1 with h3 | h3
    · rw [h3.2]; rfl
    · have := h c (by simp); omega

theorem utf8_length (s : PyStr) (b : Bytes) (h : utf8Encode s = .ok b) :
    s.length ≤ b.length ∧ ((∃ c ∈ s, 0x80 ≤ c) → s.length < b.length) := by
  induction s generalizing b with
  | nil => exact ⟨Nat.zero_le _, by rintro ⟨c, hc, _⟩; cases hc⟩
  | cons c s ih =>
    obtain ⟨b1, b2, h1, h2, rfl⟩ := utf8Encode_cons c s b h
    obtain ⟨i1, i2⟩ := ih b2 h2
    rw [List.length_append, List.length_cons]
    rcases utf8Char_bytes c b1 h1 with ⟨h3, h4⟩ | ⟨h3, h4, _⟩
    · have h5 := congrArg List.length h4
      rw [List.length_map, List.length_singleton] at h5
      refine ⟨by omega, ?_⟩
      rintro ⟨x, hx, hx'⟩
      rcases List.mem_cons.1 hx with rfl | hx
      · omega
      · have := i2 ⟨x, hx, hx'⟩; omega
    · exact ⟨by omega, fun _ => by omega⟩

theorem utf8_noBackslash (s : PyStr) (b : Bytes) (h : utf8Encode s = .ok b) (hs : 0x5c ∉ s) : 0x5c ∉ b.map UInt8.toNat := by
  induction s generalizing b with
  | nil => injection h with h; subst h; simp
  | cons c s ih =>
    obtain ⟨b1, b2, h1, h2, rfl⟩ := utf8Encode_cons c s b h
    rw [List.mem_cons, not_or] at hs
    rw [List.map_append, List.mem_append, not_or]
    refine ⟨?_, ih b2 h2 hs.2⟩
    rcases utf8Char_bytes c b1 h1 with ⟨_, h4⟩ | ⟨_, _, h4⟩
    · rw [h4, List.mem_singleton]; exact hs.1
    · intro hm; have := h4 _ hm; omega

theorem unescape_plain (names : PyStr → Option Nat) (s : PyStr) (h : 0x5c ∉ s) : unescapeChars names s = .ok s := by
  induction s with
  | nil => rw [unescapeChars.eq_def]
  | cons c s ih =>
    rw [List.mem_cons, not_or] at h
    rw [unescape_char names c s (Ne.symm h.1), ih h.2]
    rfl

/-! ### Formatting -/

theorem pyFormat_char (env : FmtEnv) (dict : PyStr → Option FmtVal) (st : FmtState) (c : Nat) (s : PyStr) (h : c ≠ 0x25) :
    pyFormat env dict st (c :: s) = consOk c (pyFormat env dict st s) := by
  rw [pyFormat]
  simp only [ne_eq, h, not_false_eq_true, if_true]

theorem parseSpec_percent (st : FmtState) (s : PyStr) : parseSpec st (0x25 :: s) = .ok ({ conv := 0x25 }, st, s) := by
  simp [parseSpec, takeFlags, takeWidth, takeNumber, fmtDigit, takePrec, takeConv]

theorem pyFormat_percent (env : FmtEnv) (dict : PyStr → Option FmtVal) (st : FmtState) (s : PyStr) :
    pyFormat env dict st (0x25 :: 0x25 :: s) = consOk 0x25 (pyFormat env dict st s) := by
  have hp : parseField dict st (0x25 :: s) = .ok ({ conv := 0x25 }, st, s) := by
    unfold parseField
    rw [if_neg (by simp), parseSpec_percent]
  rw [pyFormat]
  simp only [ne_eq, not_true_eq_false, if_false]
  split
  · next e he => rw [hp] at he; cases he
  · next sp st' rest he =>
    rw [hp] at he
    simp only [Except.ok.injEq, Prod.mk.injEq] at he
    obtain ⟨rfl, rfl, rfl⟩ := he
    simp

theorem pyFormat_text (env : FmtEnv) (dict : PyStr → Option FmtVal) (st : FmtState) (t : PyStr) (rest : PyStr) :
    pyFormat env dict st (partText (.text t) ++ rest) = appendOk t (pyFormat env dict st rest) := by
  induction t with
  | nil => show pyFormat env dict st rest = _; cases pyFormat env dict st rest <;> rfl
  | cons c t ih =>
    have e : partText (.text (c :: t)) = (if c = 0x25 then [0x25, 0x25] else [c]) ++ partText (.text t) := rfl
    rw [e, List.append_assoc]
    by_cases hc : c = 0x25
    · subst hc
      show pyFormat env dict st (0x25 :: 0x25 :: (partText (.text t) ++ rest)) = _
      rw [pyFormat_percent, ih]
      cases pyFormat env dict st rest <;> rfl
    · rw [if_neg hc]
      show pyFormat env dict st (c :: (partText (.text t) ++ rest)) = _
      rw [pyFormat_char _ _ _ _ _ hc, ih]
      cases pyFormat env dict st rest <;> rfl

theorem takeKey_plain (key rest : PyStr) (h1 : 0x28 ∉ key) (h2 : 0x29 ∉ key) : takeKey 0 (key ++ 0x29 :: rest) = some (key, rest) := by
  induction key with
  | nil => rw [List.nil_append, takeKey.eq_def]; simp
  | cons c key ih =>
    rw [List.mem_cons, not_or] at h1 h2
    rw [List.cons_append, takeKey.eq_def]
    dsimp only
    rw [if_neg (Ne.symm h2.1), if_neg (Ne.symm h1.1), ih h1.2 h2.2]
    rfl

theorem takeWhile_digits (ds rest : PyStr) (h : ∀ c ∈ ds, fmtDigit c = true) (hr : ∀ c, rest.head? = some c → fmtDigit c = false) :
    (ds ++ rest).takeWhile fmtDigit = ds ∧ (ds ++ rest).dropWhile fmtDigit = rest := by
  induction ds with
  | nil =>
    cases rest with
    | nil => simp
    | cons c r => simp [hr c rfl]
  | cons d ds ih =>
    obtain ⟨i1, i2⟩ := ih (fun c hc => h c (by simp [hc]))
    simp [h d (by simp), i1, i2]

/-- The text of a width. -/
theorem widthText (w : Nat) (rest : PyStr) (hr : ∀ c, rest.head? = some c → fmtDigit c = false) :
    takeNumber ((if w = 0 then [] else Spec.decimal w) ++ rest) = (w, rest) := by
  unfold takeNumber
  by_cases hw : w = 0
  · subst hw
    rw [if_pos rfl]
    obtain ⟨h1, h2⟩ := takeWhile_digits [] rest (by simp) hr
    rw [h1, h2]
    rfl
  · rw [if_neg hw, decimal_nat]
    obtain ⟨h1, h2⟩ := takeWhile_digits (natStr w) rest (by
      intro c hc
      have := natStr_digit w c hc
      simp [fmtDigit, this]) hr
    rw [h1, h2, foldl_natStr]

theorem natStr_head (w : Nat) (h : w ≠ 0) : ∀ c, (natStr w).head? = some c → c ≠ 0x30 := by
  induction w using Nat.strongRecOn with
  | _ w ih =>
    intro c hc
    rw [natStr] at hc
    by_cases h10 : w < 10
    · rw [if_pos h10] at hc
      simp at hc
      omega
    · rw [if_neg h10] at hc
      have hne := natStr_nonempty (w / 10)
      match hs : natStr (w / 10), hne with
      | d :: ds, _ =>
        rw [hs] at hc
        simp at hc
        exact ih (w / 10) (by omega) (by omega) c (by rw [hs]; simp [hc])

theorem takeFlags_stop (sp : FmtSpec) (s : PyStr) (h : ∀ c, s.head? = some c → c ≠ 0x2d ∧ c ≠ 0x2b ∧ c ≠ 0x20 ∧ c ≠ 0x23 ∧ c ≠ 0x30) :
    takeFlags sp s = (sp, s) := by
  cases s with
  | nil => rfl
  | cons c s =>
    obtain ⟨h1, h2, h3, h4, h5⟩ := h c rfl
    rw [takeFlags, if_neg h1, if_neg h2, if_neg h3, if_neg h4, if_neg h5]

/-- A width and a conversion that is a letter. -/
theorem head_width (w conv : Nat) (rest : PyStr) (hconv : conv = 0x73 ∨ conv = 0x64) :
    ∀ c, ((if w = 0 then [] else Spec.decimal w) ++ conv :: rest).head? = some c →
      c ≠ 0x2d ∧ c ≠ 0x2b ∧ c ≠ 0x20 ∧ c ≠ 0x23 ∧ c ≠ 0x30 ∧ c ≠ 0x2a := by
  intro c hc
  by_cases hw : w = 0
  · rw [if_pos hw] at hc
    simp at hc
    omega
  · rw [if_neg hw, decimal_nat] at hc
    have hne := natStr_nonempty w
    match hs : natStr w, hne with
    | d :: ds, _ =>
      rw [hs] at hc
      simp at hc
      subst hc
      have h1 := natStr_digit w d (by rw [hs]; simp)
      have h2 := natStr_head w hw d (by rw [hs]; rfl)
      omega

theorem parseSpec_width (st : FmtState) (flags : PyStr) (sp : FmtSpec) (w conv : Nat) (rest : PyStr) (hconv : conv = 0x73 ∨ conv = 0x64)
    (hf : takeFlags {} (flags ++ ((if w = 0 then [] else Spec.decimal w) ++ conv :: rest)) =
      (sp, (if w = 0 then [] else Spec.decimal w) ++ conv :: rest)) (hsp : sp.prec = none) :
    parseSpec st (flags ++ ((if w = 0 then [] else Spec.decimal w) ++ conv :: rest)) = .ok ({ sp with width := w, conv := conv }, st, rest) := by
  have hh := head_width w conv rest hconv
  have hn := widthText w (conv :: rest) (by
    intro c hc
    simp at hc
    rcases hconv with h | h <;> rw [h] at hc <;> subst hc <;> rfl)
  unfold parseSpec
  rw [hf]
  dsimp only
  unfold takeWidth
  rw [if_neg (fun h => (hh _ h).2.2.2.2.2 rfl), hn]
  dsimp only
  unfold takePrec
  rw [if_neg (by rcases hconv with h | h <;> rw [h] <;> simp)]
  dsimp only
  unfold takeConv
  rw [if_neg (by rcases hconv with h | h <;> rw [h] <;> simp)]

theorem pyFormat_key (env : FmtEnv) (dict : PyStr → Option FmtVal) (st : FmtState) (key s : PyStr) (h1 : 0x28 ∉ key) (h2 : 0x29 ∉ key) :
    parseField dict st (0x28 :: (key ++ 0x29 :: s)) =
      (match dict key with
       | none => .error .keyError
       | some v => parseSpec ⟨v, false⟩ s) := by
  unfold parseField
  rw [if_pos (by simp)]
  simp only [List.drop_succ_cons, List.drop_zero, takeKey_plain key s h1 h2]
  cases dict key <;> rfl

theorem pyFormat_step (env : FmtEnv) (dict : PyStr → Option FmtVal) (st : FmtState) (s : PyStr) (sp : FmtSpec) (v : FmtVal) (rest t : PyStr)
    (hp : parseField dict st s = .ok (sp, ⟨v, false⟩, rest)) (hc : sp.conv ≠ 0x25) (hv : fmtValue env sp v = .ok t) :
    ∃ st', pyFormat env dict st (0x25 :: s) = appendOk t (pyFormat env dict st' rest) := by
  refine ⟨⟨v, true⟩, ?_⟩
  rw [pyFormat]
  simp only [ne_eq, not_true_eq_false, if_false]
  split
  · next e he => rw [hp] at he; cases he
  · next sp' st' rest' he =>
    rw [hp] at he
    simp only [Except.ok.injEq, Prod.mk.injEq] at he
    obtain ⟨rfl, rfl, rfl⟩ := he
    rw [if_neg hc]
    simp [nextArg, hv]

theorem pyFormat_error (env : FmtEnv) (dict : PyStr → Option FmtVal) (st : FmtState) (s : PyStr) (e : PyErr)
    (hp : parseField dict st s = .error e) : pyFormat env dict st (0x25 :: s) = .error e := by
  rw [pyFormat]
  simp only [ne_eq, not_true_eq_false, if_false]
  split
  · next e' he => rw [hp] at he; injection he with he; rw [he]
  · next sp' st' rest' he => rw [hp] at he; cases he

theorem fmtStr_text (v : FmtVal) : fmtStr v = valueText v := by
  cases v with
  | str s => rfl
  | other t => rfl
  | int n => exact intStr_eq n

/-- One part of a format. -/
theorem pyFormat_part (env : FmtEnv) (dict : PyStr → Option FmtVal) (p : FmtPart) (hk : PlainKey p) (t : PyStr)
    (hs : partShown dict p = some t) (st : FmtState) (rest : PyStr) :
    ∃ st', pyFormat env dict st (partText p ++ rest) = appendOk t (pyFormat env dict st' rest) := by
  cases p with
  | text s =>
    injection hs with hs
    subst hs
    exact ⟨st, pyFormat_text env dict st s rest⟩
  | field key left width =>
    unfold partShown at hs
    dsimp only at hs
    cases hd : dict key with
    | none => rw [hd] at hs; cases hs
    | some v =>
      rw [hd] at hs
      have hs := (Option.some.inj hs).symm
      have e : partText (.field key left width) ++ rest =
          0x25 :: 0x28 :: (key ++ 0x29 :: ((if left then lit "-" else []) ++ ((if width = 0 then [] else Spec.decimal width) ++ 0x73 :: rest))) := by
        have e1 : lit "%(" = [0x25, 0x28] := rfl
        have e2 : lit ")" = [0x29] := rfl
        have e3 : lit "s" = [0x73] := rfl
        unfold partText
        rw [e1, e2, e3]
        simp only [List.append_assoc, List.cons_append, List.nil_append]
      have hsp := parseSpec_width ⟨v, false⟩ (if left then lit "-" else []) { left := left } width 0x73 rest (Or.inl rfl) (by
        have hstop := takeFlags_stop { left := left } _ (fun c hc => by
          have := head_width width 0x73 rest (Or.inl rfl) c hc
          exact ⟨this.1, this.2.1, this.2.2.1, this.2.2.2.1, this.2.2.2.2.1⟩)
        cases left with
        | false => exact hstop
        | true => rw [if_pos rfl]; exact hstop) rfl
      have hp := pyFormat_key env dict st key ((if left then lit "-" else []) ++ ((if width = 0 then [] else Spec.decimal width) ++ 0x73 :: rest)) hk.1 hk.2
      rw [hd] at hp
      dsimp only at hp
      rw [hsp] at hp
      rw [e]
      refine pyFormat_step env dict st _ _ v rest t hp (by show (0x73 : Nat) ≠ 0x25; decide) ?_
      unfold fmtValue
      rw [if_pos rfl, fmtStr_text, hs]
      unfold padText
      dsimp only
  | number key width =>
    unfold partShown at hs
    dsimp only at hs
    cases hd : dict key with
    | none => rw [hd] at hs; cases hs
    | some v =>
      rw [hd] at hs
      cases v with
      | str s => cases hs
      | other t => cases hs
      | int n =>
        dsimp only at hs
        have hs := (Option.some.inj hs).symm
        have e : partText (.number key width) ++ rest =
            0x25 :: 0x28 :: (key ++ 0x29 :: (lit "0" ++ ((if width = 0 then [] else Spec.decimal width) ++ 0x64 :: rest))) := by
          have e1 : lit "%(" = [0x25, 0x28] := rfl
          have e2 : lit ")0" = [0x29, 0x30] := rfl
          have e3 : lit "d" = [0x64] := rfl
          have e4 : lit "0" = [0x30] := rfl
          unfold partText
          rw [e1, e2, e3, e4]
          simp only [List.append_assoc, List.cons_append, List.nil_append]
        have hsp := parseSpec_width ⟨.int n, false⟩ (lit "0") { zero := true } width 0x64 rest (Or.inr rfl) (by
          have hstop := takeFlags_stop { zero := true } _ (fun c hc => by
            have := head_width width 0x64 rest (Or.inr rfl) c hc
            exact ⟨this.1, this.2.1, this.2.2.1, this.2.2.2.1, this.2.2.2.2.1⟩)
          exact hstop) rfl
        have hp := pyFormat_key env dict st key (lit "0" ++ ((if width = 0 then [] else Spec.decimal width) ++ 0x64 :: rest)) hk.1 hk.2
        rw [hd] at hp
        dsimp only at hp
        rw [hsp] at hp
        rw [e]
        refine pyFormat_step env dict st _ _ (.int n) rest t hp (by show (0x64 : Nat) ≠ 0x25; decide) ?_
        unfold fmtValue
        rw [if_neg (by show ¬ (0x64 : Nat) = 0x73; decide), if_pos (Or.inl rfl), hs]
        by_cases hn : 0 ≤ n
        · obtain ⟨k, rfl⟩ : ∃ k : Nat, n = (k : Int) := ⟨n.toNat, by omega⟩
          rw [if_pos hn]
          unfold padNumber
          simp only [Bool.false_eq_true, if_false, if_true, Int.natAbs_natCast, decimal_nat, show ¬ ((k : Int) < 0) by omega,
            List.length_nil, Nat.zero_add, List.nil_append]
        · rw [if_neg hn]
          have hneg : n < 0 := by omega
          have e1 : Spec.decimal n = 0x2d :: natStr n.natAbs := by
            rw [← intStr_eq, intStr, if_pos hneg]
          unfold padNumber
          simp only [Bool.false_eq_true, if_false, if_true, hneg, e1, decimal_nat, List.length_cons, List.length_nil, Nat.zero_add]
          rw [Nat.add_comm 1]
          rfl

theorem pyFormat_parts (env : FmtEnv) (dict : PyStr → Option FmtVal) (parts : List FmtPart) (hk : ∀ p ∈ parts, PlainKey p) :
    ∀ (t : PyStr), formatShown dict parts = some t → ∀ (st : FmtState) (rest : PyStr),
      ∃ st', pyFormat env dict st (formatText parts ++ rest) = appendOk t (pyFormat env dict st' rest) := by
  induction parts with
  | nil =>
    intro t ht st rest
    injection ht with ht
    subst ht
    refine ⟨st, ?_⟩
    show pyFormat env dict st rest = _
    cases pyFormat env dict st rest <;> rfl
  | cons p ps ih =>
    intro t ht st rest
    unfold formatShown at ht
    cases h1 : partShown dict p with
    | none => rw [h1] at ht; cases ht
    | some a =>
      cases h2 : formatShown dict ps with
      | none => rw [h1, h2] at ht; cases ht
      | some b =>
        rw [h1, h2] at ht
        have ht := (Option.some.inj ht).symm
        have e : formatText (p :: ps) ++ rest = partText p ++ (formatText ps ++ rest) := by
          unfold formatText
          rw [List.flatMap_cons, List.append_assoc]
        rw [e]
        obtain ⟨st1, e1⟩ := pyFormat_part env dict p (hk p (by simp)) a h1 st (formatText ps ++ rest)
        obtain ⟨st2, e2⟩ := ih (fun q hq => hk q (by simp [hq])) b h2 st1 rest
        refine ⟨st2, ?_⟩
        rw [e1, e2, ht]
        cases pyFormat env dict st2 rest
        · rfl
        · show Except.ok (a ++ (b ++ _)) = Except.ok (a ++ b ++ _)
          rw [List.append_assoc]

theorem pyFormat_missing (env : FmtEnv) (dict : PyStr → Option FmtVal) (st : FmtState) (key s : PyStr) (h1 : 0x28 ∉ key) (h2 : 0x29 ∉ key)
    (hd : dict key = none) : pyFormat env dict st (lit "%(" ++ key ++ lit ")" ++ s) = .error .keyError := by
  have e : lit "%(" ++ key ++ lit ")" ++ s = 0x25 :: 0x28 :: (key ++ 0x29 :: s) := by
    have e1 : lit "%(" = [0x25, 0x28] := rfl
    have e2 : lit ")" = [0x29] := rfl
    rw [e1, e2]
    simp only [List.append_assoc, List.cons_append, List.nil_append]
  rw [e]
  refine pyFormat_error env dict st _ .keyError ?_
  rw [pyFormat_key env dict st key s h1 h2, hd]

end Hwp
