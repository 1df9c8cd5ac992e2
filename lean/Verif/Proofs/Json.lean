/- JSON texts are read back as the values they were written for. -/
import Verif.Model.Json
import Verif.Spec.Json
import Verif.Proofs.Commands
set_option linter.unusedSimpArgs false
set_option linter.unusedVariables false
namespace Hwp
open Spec

/-! ### Strings -/

theorem hexValue_digit (d : Nat) (h : d < 16) : hexValue (jsonHexDigit d) = some d := by
  have : ∀ d : Fin 16, hexValue (jsonHexDigit d.val) = some d.val := by decide
  exact this ⟨d, h⟩

theorem readChars_u (n : Nat) (h : n < 0x10000) (t : PyStr) :
    readChars (jsonEscapeU n ++ t) = (readChars t).map fun p => (n :: p.1, p.2) := by
  simp only [jsonEscapeU, List.cons_append, List.nil_append]
  rw [readChars, hexValue_digit _ (by omega), hexValue_digit _ (by omega), hexValue_digit _ (by omega),
    hexValue_digit _ (by omega)]
  have e : n / 4096 % 16 * 4096 + n / 256 % 16 * 256 + n / 16 % 16 * 16 + n % 16 = n := by omega
  simp only [Option.bind_eq_bind, Option.bind_some, e]
  cases readChars t <;> rfl

theorem readChars_plain (c : Nat) (t : PyStr) (h : 0x20 ≤ c) (h1 : c ≠ 0x22) (h2 : c ≠ 0x5c) (h3 : c < 0x10000) :
    readChars (c :: t) = (readChars t).map fun p => (c :: p.1, p.2) := by
  rw [readChars]
  · rw [if_neg (by omega)]
    have : utf16 [c] = [c] := by simp [utf16, h3]
    rw [this]
    cases readChars t <;> rfl
  all_goals simp_all

theorem readChars_char (c : Nat) (hc : c < 0x110000) (t : PyStr) :
    readChars (jsonChar c ++ t) = (readChars t).map fun p => (utf16 [c] ++ p.1, p.2) := by
  have small : c < 0x10000 → utf16 [c] = [c] := by intro h; simp [utf16, h]
  unfold jsonChar
  split
  · subst c; rw [small (by omega), show lit "\\\\" = [0x5c, 0x5c] by decide]
    simp only [List.cons_append, List.nil_append]
    rw [readChars.eq_def]; simp [List.lookup]; cases readChars t <;> rfl
  split
  · subst c; rw [small (by omega), show lit "\\\"" = [0x5c, 0x22] by decide]
    simp only [List.cons_append, List.nil_append]
    rw [readChars.eq_def]; simp [List.lookup]; cases readChars t <;> rfl
  split
  · subst c; rw [small (by omega), show lit "\\b" = [0x5c, 0x62] by decide]
    simp only [List.cons_append, List.nil_append]
    rw [readChars.eq_def]; simp [List.lookup]; cases readChars t <;> rfl
  split
  · subst c; rw [small (by omega), show lit "\\f" = [0x5c, 0x66] by decide]
    simp only [List.cons_append, List.nil_append]
    rw [readChars.eq_def]; simp [List.lookup]; cases readChars t <;> rfl
  split
  · subst c; rw [small (by omega), show lit "\\n" = [0x5c, 0x6e] by decide]
    simp only [List.cons_append, List.nil_append]
    rw [readChars.eq_def]; simp [List.lookup]; cases readChars t <;> rfl
  split
  · subst c; rw [small (by omega), show lit "\\r" = [0x5c, 0x72] by decide]
    simp only [List.cons_append, List.nil_append]
    rw [readChars.eq_def]; simp [List.lookup]; cases readChars t <;> rfl
  split
  · subst c; rw [small (by omega), show lit "\\t" = [0x5c, 0x74] by decide]
    simp only [List.cons_append, List.nil_append]
    rw [readChars.eq_def]; simp [List.lookup]; cases readChars t <;> rfl
  split
  · rw [small (by omega), List.singleton_append]
    exact readChars_plain c t (by omega) (by omega) (by omega) (by omega)
  split
  · rename_i h
    rw [small h]; exact readChars_u c h t
  · rename_i h
    have e : utf16 [c] = [0xd800 + (c - 0x10000) / 1024, 0xdc00 + (c - 0x10000) % 1024] := by simp [utf16, h]
    have e2 : (c - 0x10000) / 1024 % 1024 = (c - 0x10000) / 1024 := by omega
    dsimp only
    rw [e, e2, List.append_assoc, readChars_u _ (by omega), readChars_u _ (by omega)]
    cases readChars t <;> rfl

theorem utf16_cons (c : Nat) (s : PyStr) : utf16 (c :: s) = utf16 [c] ++ utf16 s := by
  simp [utf16]

theorem readChars_string (s : PyStr) (h : ∀ c ∈ s, c < 0x110000) (t : PyStr) :
    readChars (s.flatMap jsonChar ++ 0x22 :: t) = some (utf16 s, t) := by
  induction s with
  | nil => simp [readChars, utf16]
  | cons c s ih =>
    rw [List.flatMap_cons, List.append_assoc, readChars_char c (h c (by simp)),
      ih fun x hx => h x (by simp [hx])]
    show some (utf16 [c] ++ utf16 s, t) = _
    rw [← utf16_cons]

/-! ### Numbers -/

/-- What follows a value: a comma, a new line or nothing. -/
def Stop (rest : PyStr) : Prop := ∀ c t, rest = c :: t → c = 0x2c ∨ c = 0x0a

theorem readDigits_append (s : PyStr) {rest : PyStr} (h : Stop rest) :
    readDigits (s ++ rest) = ((readDigits s).1, (readDigits s).2 ++ rest) := by
  induction s with
  | nil =>
    cases rest with
    | nil => rfl
    | cons c t =>
      have hc := h c t rfl
      simp only [List.nil_append, readDigits]
      rw [if_neg (by omega)]
  | cons c s ih =>
    rw [List.cons_append, readDigits, readDigits, ih]
    split
    · rfl
    · simp only [List.cons_append]

theorem readFraction_append (s : PyStr) {rest x : PyStr} {ds : List Nat} (h : Stop rest)
    (hs : readFraction s = some (ds, x)) : readFraction (s ++ rest) = some (ds, x ++ rest) := by
  cases s with
  | nil =>
    simp [readFraction] at hs
    obtain ⟨rfl, rfl⟩ := hs
    cases rest with
    | nil => rfl
    | cons c t =>
      have hc := h c t rfl
      rw [List.nil_append, readFraction]
      rintro s e; injection e with e; omega
  | cons c s =>
    by_cases hc : c = 0x2e
    · subst hc
      rw [readFraction] at hs
      rw [List.cons_append, readFraction, readDigits_append s h]
      split at hs
      · cases hs
      · rename_i hne
        injection hs with hs
        rw [if_neg hne, hs]
    · rw [readFraction] at hs
      · injection hs with hs; injection hs with h1 h2
        subst h1 h2
        rw [List.cons_append, readFraction]
        rintro s e; injection e with e; exact hc e
      · rintro s e; injection e with e; exact hc e

theorem readExpDigits_append (s : PyStr) {rest x : PyStr} {n : Nat} (h : Stop rest)
    (hs : readExpDigits s = some (n, x)) : readExpDigits (s ++ rest) = some (n, x ++ rest) := by
  unfold readExpDigits at hs ⊢
  rw [readDigits_append s h]
  split at hs
  · cases hs
  · rename_i hne
    rw [if_neg hne]
    injection hs with hs; injection hs with h1 h2
    rw [h1, ← h2]

theorem map_append {α β} {o o' : Option (α × PyStr)} (f : α → β) {rest x : PyStr} {e : β}
    (ho : ∀ n y, o = some (n, y) → o' = some (n, y ++ rest))
    (h : (o.map fun p => (f p.1, p.2)) = some (e, x)) : (o'.map fun p => (f p.1, p.2)) = some (e, x ++ rest) := by
  cases o with
  | none => cases h
  | some p =>
    obtain ⟨n, y⟩ := p
    rw [ho n y rfl]
    simp at h ⊢
    exact ⟨h.1, by rw [h.2]⟩

theorem readExponent_append (s : PyStr) {rest x : PyStr} {e : Int} (h : Stop rest)
    (hs : readExponent s = some (e, x)) : readExponent (s ++ rest) = some (e, x ++ rest) := by
  cases s with
  | nil =>
    simp [readExponent] at hs
    obtain ⟨rfl, rfl⟩ := hs
    cases rest with
    | nil => rfl
    | cons c t =>
      have hc := h c t rfl
      rw [List.nil_append]
      unfold readExponent
      split
      · rename_i e; injection e with e1 e2; subst e1
        rw [if_neg (by omega)]; simp [e2]
      · rename_i e; injection e with e1 e2; subst e1
        rw [if_neg (by omega)]; simp [e2]
      · rename_i e; injection e with e1 e2; subst e1
        rw [if_neg (by omega)]; simp [e2]
      · rename_i e; cases e
  | cons c s =>
    by_cases hc : c = 0x65 ∨ c = 0x45
    · cases s with
      | nil =>
        simp [readExponent, hc, readExpDigits, readDigits] at hs
      | cons d s =>
        by_cases h1 : d = 0x2b
        · subst h1
          simp only [readExponent, if_pos hc, List.cons_append] at hs ⊢
          exact map_append (fun n : Nat => (n : Int)) (fun n y hy => readExpDigits_append s h hy) hs
        · by_cases h2 : d = 0x2d
          · subst h2
            simp only [readExponent, if_pos hc, List.cons_append] at hs ⊢
            exact map_append (fun n : Nat => -(n : Int)) (fun n y hy => readExpDigits_append s h hy) hs
          · rw [readExponent] at hs
            · rw [List.cons_append, List.cons_append, readExponent, if_pos hc]
              · rw [if_pos hc] at hs
                exact map_append (fun n : Nat => (n : Int)) (fun n y hy => by
                  have := readExpDigits_append (d :: s) h hy
                  exact this) hs
              · intro s e; injection e with e; exact h1 e
              · intro s e; injection e with e; exact h2 e
            · intro s e; injection e with e; exact h1 e
            · intro s e; injection e with e; exact h2 e
    · have key : ∀ s, readExponent (c :: s) = some (0, c :: s) := by
        intro s
        unfold readExponent
        split
        · rename_i e; injection e with e1 e2; subst e1
          rw [if_neg hc]; simp [e2]
        · rename_i e; injection e with e1 e2; subst e1
          rw [if_neg hc]; simp [e2]
        · rename_i e; injection e with e1 e2; subst e1
          rw [if_neg hc]; simp [e2]
        · rename_i e; cases e
      rw [key] at hs
      injection hs with hs; injection hs with h1 h2
      subst h1 h2
      rw [List.cons_append, key]

theorem readUnsigned_append (s : PyStr) {rest x : PyStr} {p : Nat × Int} (h : Stop rest)
    (hs : readUnsigned s = some (p, x)) : readUnsigned (s ++ rest) = some (p, x ++ rest) := by
  unfold readUnsigned at hs ⊢
  rw [readDigits_append s h]
  dsimp only at hs ⊢
  split at hs
  · cases hs
  · rename_i hne
    rw [if_neg hne]
    cases hf : readFraction (readDigits s).2 with
    | none => rw [hf] at hs; cases hs
    | some q =>
      obtain ⟨fr, s2⟩ := q
      rw [hf] at hs
      simp only [Option.bind_eq_bind, Option.bind_some] at hs
      cases he : readExponent s2 with
      | none => rw [he] at hs; cases hs
      | some q =>
        obtain ⟨e, s3⟩ := q
        rw [he] at hs
        rw [readFraction_append _ h hf]
        simp only [Option.bind_eq_bind, Option.bind_some]
        rw [readExponent_append _ h he]
        simp at hs ⊢
        exact ⟨hs.1, by rw [hs.2]⟩

theorem readNumber_minus (s : PyStr) :
    readNumber (0x2d :: s) = (readUnsigned s).map fun p => (.num (-(p.1.1 : Int)) p.1.2, p.2) := by
  rw [readNumber]

theorem readNumber_plain (c : Nat) (s : PyStr) (h : c ≠ 0x2d) :
    readNumber (c :: s) = (readUnsigned (c :: s)).map fun p => (.num p.1.1 p.1.2, p.2) := by
  rw [readNumber]
  intro s e; injection e with e; exact h e

theorem readNumber_append (s : PyStr) {rest x : PyStr} {v : JValue} (hne : s ≠ []) (h : Stop rest)
    (hs : readNumber s = some (v, x)) : readNumber (s ++ rest) = some (v, x ++ rest) := by
  cases s with
  | nil => exact absurd rfl hne
  | cons c s =>
    by_cases hc : c = 0x2d
    · subst hc
      rw [List.cons_append, readNumber_minus]
      rw [readNumber_minus] at hs
      exact map_append (fun q : Nat × Int => JValue.num (-(q.1 : Int)) q.2)
        (fun n y hy => readUnsigned_append s h hy) hs
    · rw [List.cons_append, readNumber_plain c _ hc]
      rw [readNumber_plain c _ hc] at hs
      exact map_append (fun q : Nat × Int => JValue.num q.1 q.2)
        (fun n y hy => readUnsigned_append (c :: s) h hy) hs

/-! The numbers written for integers. -/

theorem readDigits_all (s : PyStr) (h : ∀ c ∈ s, 0x30 ≤ c ∧ c ≤ 0x39) :
    readDigits s = (s.map (· - 0x30), []) := by
  induction s with
  | nil => rfl
  | cons c s ih =>
    rw [readDigits, if_pos (h c (by simp)), ih fun x hx => h x (by simp [hx])]
    rfl

theorem digitsValue_dec (n : Nat) : digitsValue ((decDigits n).map (· - 0x30)) = n := by
  induction n using Nat.strongRecOn with
  | ind n ih =>
    rw [decDigits]
    split
    · simp [digitsValue]
    · rw [List.map_append]
      unfold digitsValue
      rw [List.foldl_append]
      have := ih (n / 10) (by omega)
      unfold digitsValue at this
      rw [this]
      simp only [List.map_cons, List.map_nil, List.foldl_cons, List.foldl_nil]
      omega

theorem decDigits_zero (n : Nat) (h : ((decDigits n).map (· - 0x30)).head? = some 0) :
    n = 0 := by
  induction n using Nat.strongRecOn with
  | ind n ih =>
    rw [decDigits] at h
    split at h
    · simp at h; exact h
    · rename_i hn
      have h2 : ((decDigits (n / 10)).map (· - 0x30)).head? = some 0 := by
        cases hd : decDigits (n / 10) with
        | nil => exact absurd hd (decDigits_ne _)
        | cons c t => rw [hd] at h; simpa using h
      have := ih (n / 10) (by omega) h2
      omega

theorem readUnsigned_dec (n : Nat) : readUnsigned (decDigits n) = some ((n, 0), []) := by
  unfold readUnsigned
  rw [readDigits_all _ (decDigits_mem n)]
  dsimp only
  rw [if_neg]
  · simp [readFraction, readExponent, digitsValue_dec]
  · rintro (h | ⟨h, h2⟩)
    · exact decDigits_ne n (List.map_eq_nil_iff.1 h)
    · have := decDigits_zero n h
      subst this
      rw [decDigits] at h2
      simp at h2

theorem readNumber_int (n : Int) : readNumber (intStr n) = some (.num n 0, []) := by
  rw [intStr_decimal]
  cases n with
  | ofNat m =>
    show readNumber (decDigits m) = _
    obtain ⟨c, t, e⟩ := List.exists_cons_of_ne_nil (decDigits_ne m)
    have hc := decDigits_mem m c (by rw [e]; simp)
    have := readNumber_plain c t (by omega)
    rw [e, this, ← e, readUnsigned_dec]
    rfl
  | negSucc m =>
    show readNumber (0x2d :: decDigits (m + 1)) = _
    rw [readNumber_minus, readUnsigned_dec]
    rfl

/-! ### Values -/

mutual
/-- The JSON value a value of the encoder stands for; `none` for numbers without a JSON text. -/
def jv : Json → Option JValue
  | .null => some .null
  | .bool b => some (.bool b)
  | .int n => some (.num n 0)
  | .float t =>
    match t with
    | [] => none
    | c :: _ =>
      if c = 0x2d ∨ (0x30 ≤ c ∧ c ≤ 0x39) then
        match readNumber t with
        | some (v, []) => some v
        | _ => none
      else none
  | .str s => if s.all (· < 0x110000) then some (.str (utf16 s)) else none
  | .arr xs => (jvs xs).map .arr
  | .obj fs => (jvf fs).map .obj
def jvs : List Json → Option (List JValue)
  | [] => some []
  | x :: xs =>
    match jv x, jvs xs with
    | some v, some vs => some (v :: vs)
    | _, _ => none
def jvf : List (PyStr × Json) → Option (List (List Nat × JValue))
  | [] => some []
  | (k, x) :: fs =>
    match jv x, jvf fs with
    | some v, some vs => if k.all (· < 0x110000) then some ((utf16 k, v) :: vs) else none
    | _, _ => none
end

mutual
/-- The fuel the reader needs. -/
def jcost : Json → Nat
  | .arr xs => 1 + jcosts xs
  | .obj fs => 1 + jcostf fs
  | _ => 1
def jcosts : List Json → Nat
  | [] => 0
  | x :: xs => 1 + max (jcost x) (jcosts xs)
def jcostf : List (PyStr × Json) → Nat
  | [] => 0
  | (_, x) :: fs => 1 + max (jcost x) (jcostf fs)
end

theorem skipSpace_newline (k : Nat) (s : PyStr) : skipSpace (jsonNewline k ++ s) = skipSpace s := by
  unfold jsonNewline
  rw [List.cons_append, skipSpace]
  generalize 2 * k = m
  induction m with
  | zero => rfl
  | succ m ih => rw [List.replicate_succ, List.cons_append, skipSpace, ih]

theorem skipSpace_other (c : Nat) (s : PyStr) (h : c ≠ 0x20 ∧ c ≠ 0x09 ∧ c ≠ 0x0a ∧ c ≠ 0x0d) :
    skipSpace (c :: s) = c :: s := by
  unfold skipSpace
  split <;> simp_all

theorem readValue_skip {s s' : PyStr} (f : Nat) (h : skipSpace s = skipSpace s') :
    readValue f s = readValue f s' := by
  cases f with
  | zero => rw [readValue, readValue]
  | succ f => rw [readValue, readValue, h]

theorem readArray_skip {s s' : PyStr} (f : Nat) (h : skipSpace s = skipSpace s') :
    readArray f s = readArray f s' := by
  cases f with
  | zero => rw [readArray, readArray]
  | succ f => rw [readArray, readArray, readValue_skip f h]

theorem readObject_skip {s s' : PyStr} (f : Nat) (h : skipSpace s = skipSpace s') :
    readObject f s = readObject f s' := by
  cases f with
  | zero => rw [readObject, readObject]
  | succ f => rw [readObject, readObject, h]

theorem readValue_number (f : Nat) (c : Nat) (s : PyStr) (h : c = 0x2d ∨ (0x30 ≤ c ∧ c ≤ 0x39)) :
    readValue (f + 1) (c :: s) = readNumber (c :: s) := by
  rw [readValue, skipSpace_other c s (by omega)]
  split <;> (first | (rename_i e; injection e with e1 _; omega) | rfl)

/-- The first character of a value is neither white space nor a closing bracket. -/
theorem jsonDumps_head (l : Nat) (v : Json) (w : JValue) (h : jv v = some w) :
    ∃ c t, jsonDumps l v = c :: t ∧ c ≠ 0x20 ∧ c ≠ 0x09 ∧ c ≠ 0x0a ∧ c ≠ 0x0d ∧ c ≠ 0x5d ∧ c ≠ 0x7d := by
  cases v with
  | null => exact ⟨0x6e, [0x75, 0x6c, 0x6c], by rw [jsonDumps]; decide, by decide⟩
  | bool b =>
    cases b
    · exact ⟨0x66, [0x61, 0x6c, 0x73, 0x65], by rw [jsonDumps]; decide, by decide⟩
    · exact ⟨0x74, [0x72, 0x75, 0x65], by rw [jsonDumps]; decide, by decide⟩
  | int n =>
    rw [jsonDumps, intStr_decimal]
    cases n with
    | ofNat m =>
      obtain ⟨c, t, e⟩ := List.exists_cons_of_ne_nil (decDigits_ne m)
      have hc := decDigits_mem m c (by rw [e]; simp)
      exact ⟨c, t, e, by omega⟩
    | negSucc m => exact ⟨0x2d, decDigits (m + 1), rfl, by decide⟩
  | float t =>
    rw [jsonDumps]
    cases t with
    | nil => rw [jv] at h; cases h
    | cons c t =>
      rw [jv] at h
      split at h
      · rename_i hc; exact ⟨c, t, rfl, by omega⟩
      · cases h
  | str s => exact ⟨0x22, s.flatMap jsonChar ++ [0x22], by rw [jsonDumps]; rfl, by decide⟩
  | arr xs =>
    cases xs with
    | nil => exact ⟨0x5b, [0x5d], by rw [jsonDumps]; decide, by decide⟩
    | cons x xs => rw [jsonDumps]; exact ⟨0x5b, _, rfl, by decide⟩
  | obj fs =>
    cases fs with
    | nil => exact ⟨0x7b, [0x7d], by rw [jsonDumps]; decide, by decide⟩
    | cons x fs =>
      obtain ⟨k, v⟩ := x
      rw [jsonDumps]; exact ⟨0x7b, _, rfl, by decide⟩

theorem readValue_quote (f : Nat) (s : PyStr) :
    readValue (f + 1) (0x22 :: s) = (readChars s).map fun p => (.str p.1, p.2) := by
  rw [readValue, skipSpace_other _ _ (by decide)]
  rfl

theorem readValue_null (f : Nat) (s : PyStr) :
    readValue (f + 1) (0x6e :: 0x75 :: 0x6c :: 0x6c :: s) = some (.null, s) := by
  rw [readValue, skipSpace_other _ _ (by decide)]
  rfl

theorem readValue_true (f : Nat) (s : PyStr) :
    readValue (f + 1) (0x74 :: 0x72 :: 0x75 :: 0x65 :: s) = some (.bool true, s) := by
  rw [readValue, skipSpace_other _ _ (by decide)]
  rfl

theorem readValue_false (f : Nat) (s : PyStr) :
    readValue (f + 1) (0x66 :: 0x61 :: 0x6c :: 0x73 :: 0x65 :: s) = some (.bool false, s) := by
  rw [readValue, skipSpace_other _ _ (by decide)]
  rfl

theorem readValue_arr0 (f : Nat) (s : PyStr) : readValue (f + 1) (0x5b :: 0x5d :: s) = some (.arr [], s) := by
  rw [readValue, skipSpace_other _ _ (by decide)]
  rfl

theorem readValue_obj0 (f : Nat) (s : PyStr) : readValue (f + 1) (0x7b :: 0x7d :: s) = some (.obj [], s) := by
  rw [readValue, skipSpace_other _ _ (by decide)]
  rfl

theorem readValue_arr (f : Nat) (s t : PyStr) (c : Nat) (h : skipSpace s = c :: t) (hc : c ≠ 0x5d) :
    readValue (f + 1) (0x5b :: s) = (readArray f s).map fun p => (.arr p.1, p.2) := by
  rw [readValue, skipSpace_other _ _ (by decide)]
  show (match skipSpace s with
      | 0x5d :: s => some (JValue.arr [], s)
      | _ => (readArray f s).map fun (xs, s) => (.arr xs, s)) = _
  rw [h]
  split
  · rename_i e; injection e with e; exact absurd e hc
  · rfl

theorem readValue_obj (f : Nat) (s t : PyStr) (c : Nat) (h : skipSpace s = c :: t) (hc : c ≠ 0x7d) :
    readValue (f + 1) (0x7b :: s) = (readObject f s).map fun p => (.obj p.1, p.2) := by
  rw [readValue, skipSpace_other _ _ (by decide)]
  show (match skipSpace s with
      | 0x7d :: s => some (JValue.obj [], s)
      | _ => (readObject f s).map fun (xs, s) => (.obj xs, s)) = _
  rw [h]
  split
  · rename_i e; injection e with e; exact absurd e hc
  · rfl

theorem readValue_string (f : Nat) (s : PyStr) (h : ∀ c ∈ s, c < 0x110000) (rest : PyStr) :
    readValue (f + 1) (jsonString s ++ rest) = some (.str (utf16 s), rest) := by
  unfold jsonString
  simp only [List.cons_append, List.nil_append, List.append_assoc]
  rw [readValue_quote, readChars_string s h]
  rfl

theorem readArray_end {f : Nat} {s s1 s2 : PyStr} {x : JValue} (h : readValue f s = some (x, s1))
    (h1 : skipSpace s1 = 0x5d :: s2) : readArray (f + 1) s = some ([x], s2) := by
  rw [readArray, h]
  simp only [Option.bind_eq_bind, Option.bind_some]
  rw [h1]
  rfl

theorem readArray_more {f : Nat} {s s1 s2 s3 : PyStr} {x : JValue} {xs : List JValue}
    (h : readValue f s = some (x, s1)) (h1 : skipSpace s1 = 0x2c :: s2) (h2 : readArray f s2 = some (xs, s3)) :
    readArray (f + 1) s = some (x :: xs, s3) := by
  rw [readArray, h]
  simp only [Option.bind_eq_bind, Option.bind_some]
  rw [h1]
  show ((readArray f s2).bind fun p => some (x :: p.1, p.2)) = _
  rw [h2]
  rfl

/-- A member of an object, and what follows. -/
theorem readObject_member {f : Nat} {s s0 s1 s2 s3 : PyStr} {k : List Nat} {x : JValue}
    (h : skipSpace s = 0x22 :: s0) (h0 : readChars s0 = some (k, s1)) (h1 : skipSpace s1 = 0x3a :: s2)
    (h2 : readValue f s2 = some (x, s3)) :
    (∀ s4, skipSpace s3 = 0x7d :: s4 → readObject (f + 1) s = some ([(k, x)], s4)) ∧
    (∀ s4 s5 fs, skipSpace s3 = 0x2c :: s4 → readObject f s4 = some (fs, s5) →
      readObject (f + 1) s = some ((k, x) :: fs, s5)) := by
  have e : readObject (f + 1) s =
      (match skipSpace s3 with
        | 0x7d :: s => some ([(k, x)], s)
        | 0x2c :: s => (readObject f s).bind fun p => some ((k, x) :: p.1, p.2)
        | _ => none) := by
    rw [readObject, h]
    show ((readChars s0).bind fun p => match skipSpace p.2 with
      | 0x3a :: s => (readValue f s).bind fun q => match skipSpace q.2 with
        | 0x7d :: s => some ([(p.1, q.1)], s)
        | 0x2c :: s => (readObject f s).bind fun r => some ((p.1, q.1) :: r.1, r.2)
        | _ => none
      | _ => none) = _
    rw [h0]
    show (match skipSpace s1 with
      | 0x3a :: s => (readValue f s).bind fun q => match skipSpace q.2 with
        | 0x7d :: s => some ([(k, q.1)], s)
        | 0x2c :: s => (readObject f s).bind fun r => some ((k, q.1) :: r.1, r.2)
        | _ => none
      | _ => none) = _
    rw [h1]
    show ((readValue f s2).bind fun q => match skipSpace q.2 with
        | 0x7d :: s => some ([(k, q.1)], s)
        | 0x2c :: s => (readObject f s).bind fun r => some ((k, q.1) :: r.1, r.2)
        | _ => none) = _
    rw [h2]
    rfl
  constructor
  · intro s4 h4
    rw [e, h4]
    rfl
  · intro s4 s5 fs h4 h5
    rw [e, h4]
    show ((readObject f s4).bind fun p => some ((k, x) :: p.1, p.2)) = _
    rw [h5]
    rfl

theorem stop_newline (k : Nat) (s : PyStr) : Stop (jsonNewline k ++ s) := by
  intro c t h
  unfold jsonNewline at h
  rw [List.cons_append] at h
  injection h with h; exact .inr h.symm

theorem stop_items (l : Nat) (xs : List Json) (k : Nat) (s : PyStr) : Stop (jsonItems l xs ++ (jsonNewline k ++ s)) := by
  cases xs with
  | nil => rw [jsonItems]; exact stop_newline k s
  | cons x xs =>
    rw [jsonItems]
    intro c t h
    simp only [List.cons_append, List.nil_append] at h
    injection h with h; exact .inl h.symm

theorem stop_fields (l : Nat) (fs : List (PyStr × Json)) (k : Nat) (s : PyStr) :
    Stop (jsonFields l fs ++ (jsonNewline k ++ s)) := by
  cases fs with
  | nil => rw [jsonFields]; exact stop_newline k s
  | cons x fs =>
    obtain ⟨key, v⟩ := x
    rw [jsonFields]
    intro c t h
    simp only [List.cons_append, List.nil_append] at h
    injection h with h; exact .inl h.symm

mutual
theorem readValue_dumps (v : Json) (l f : Nat) (w : JValue) (rest : PyStr) (hw : jv v = some w)
    (hf : jcost v ≤ f) (hr : Stop rest) : readValue f (jsonDumps l v ++ rest) = some (w, rest) := by
  match v, f with
  | .null, 0 => simp [jcost] at hf
  | .bool b, 0 => simp [jcost] at hf
  | .int b, 0 => simp [jcost] at hf
  | .float b, 0 => simp [jcost] at hf
  | .str b, 0 => simp [jcost] at hf
  | .arr b, 0 => simp [jcost] at hf
  | .obj b, 0 => simp [jcost] at hf
  | .null, f + 1 =>
    rw [jv] at hw; injection hw with hw; subst hw
    rw [jsonDumps, show lit "null" = [0x6e, 0x75, 0x6c, 0x6c] by decide]
    exact readValue_null f rest
  | .bool b, f + 1 =>
    rw [jv] at hw; injection hw with hw; subst hw
    cases b
    · rw [jsonDumps, show (if false = true then lit "true" else lit "false") = [0x66, 0x61, 0x6c, 0x73, 0x65] by decide]
      exact readValue_false f rest
    · rw [jsonDumps, show (if true = true then lit "true" else lit "false") = [0x74, 0x72, 0x75, 0x65] by decide]
      exact readValue_true f rest
  | .int n, f + 1 =>
    rw [jv] at hw; injection hw with hw; subst hw
    rw [jsonDumps]
    have hne : intStr n ≠ [] := by
      obtain ⟨c, t, e, -⟩ := intStr_first n; rw [e]; simp
    have := readNumber_append (intStr n) hne hr (readNumber_int n)
    obtain ⟨c, t, e⟩ := List.exists_cons_of_ne_nil hne
    have hc : c = 0x2d ∨ (0x30 ≤ c ∧ c ≤ 0x39) := by
      rw [intStr_decimal] at e
      cases n with
      | ofNat m => right; exact decDigits_mem m c (by rw [show decDigits m = c :: t from e]; simp)
      | negSucc m => left; injection e with e _; exact e.symm
    rw [e, List.cons_append] at this
    rw [e, List.cons_append, readValue_number _ _ _ hc, this]
    rfl
  | .float t, f + 1 =>
    rw [jsonDumps]
    cases t with
    | nil => rw [jv] at hw; cases hw
    | cons c t =>
      rw [jv] at hw
      split at hw
      · rename_i hc
        split at hw
        · rename_i v hv
          injection hw with hw; subst hw
          have := readNumber_append (c :: t) (by simp) hr hv
          rw [List.cons_append] at this ⊢
          rw [readValue_number _ _ _ hc, this]
          rfl
        · cases hw
      · cases hw
  | .str s, f + 1 =>
    rw [jv] at hw
    split at hw
    · rename_i hs
      injection hw with hw; subst hw
      rw [jsonDumps]
      exact readValue_string f s (by simpa using hs) rest
    · cases hw
  | .arr [], f + 1 =>
    rw [jv, jvs] at hw; injection hw with hw; subst hw
    rw [jsonDumps, show lit "[]" = [0x5b, 0x5d] by decide]
    exact readValue_arr0 f rest
  | .arr (x :: xs), f + 1 =>
    rw [jv] at hw
    cases hvs : jvs (x :: xs) with
    | none => rw [hvs] at hw; cases hw
    | some ws =>
      rw [hvs] at hw; injection hw with hw; subst hw
      have h1 := readArray_dumps x xs (l + 1) l f ws rest hvs (by rw [jcost] at hf; omega)
      have hx : ∃ u, jv x = some u := by
        rw [jvs] at hvs
        cases hx : jv x with
        | none => rw [hx] at hvs; cases hvs
        | some u => exact ⟨u, rfl⟩
      obtain ⟨u, hu⟩ := hx
      obtain ⟨c, t, e, c1, c2, c3, c4, c5, c6⟩ := jsonDumps_head (l + 1) x u hu
      rw [jsonDumps]
      simp only [List.cons_append, List.nil_append, List.append_assoc] at h1 ⊢
      rw [readValue_arr f _ _ c (by rw [skipSpace_newline, e, List.cons_append, skipSpace_other _ _ ⟨c1, c2, c3, c4⟩]) c5,
        readArray_skip f (skipSpace_newline _ _), h1]
      rfl
  | .obj [], f + 1 =>
    rw [jv, jvf] at hw; injection hw with hw; subst hw
    rw [jsonDumps, show lit "{}" = [0x7b, 0x7d] by decide]
    exact readValue_obj0 f rest
  | .obj ((k, x) :: fs), f + 1 =>
    rw [jv] at hw
    cases hvs : jvf ((k, x) :: fs) with
    | none => rw [hvs] at hw; cases hw
    | some ws =>
      rw [hvs] at hw; injection hw with hw; subst hw
      have h1 := readObject_dumps k x fs (l + 1) l f ws rest hvs (by rw [jcost] at hf; omega)
      rw [jsonDumps]
      simp only [List.cons_append, List.nil_append, List.append_assoc] at h1 ⊢
      rw [readValue_obj f _ _ 0x22 (by
          rw [skipSpace_newline]
          simp only [jsonString, List.cons_append, List.nil_append, List.append_assoc]
          rw [skipSpace_other _ _ (by decide)]) (by decide),
        readObject_skip f (skipSpace_newline _ _), h1]
      rfl
termination_by sizeOf v
decreasing_by all_goals (simp_wf; omega)
theorem readArray_dumps (x : Json) (xs : List Json) (l k f : Nat) (ws : List JValue) (rest : PyStr)
    (hw : jvs (x :: xs) = some ws) (hf : jcosts (x :: xs) ≤ f) :
    readArray f (jsonDumps l x ++ (jsonItems l xs ++ (jsonNewline k ++ ([0x5d] ++ rest)))) = some (ws, rest) := by
  have ih : ∀ y ys f us, xs = y :: ys → jvs (y :: ys) = some us → jcosts (y :: ys) ≤ f →
      readArray f (jsonDumps l y ++ (jsonItems l ys ++ (jsonNewline k ++ ([0x5d] ++ rest)))) = some (us, rest) :=
    fun y ys f us e h1 h2 => readArray_dumps y ys l k f us rest h1 h2
  rw [jcosts] at hf
  match f with
  | 0 => omega
  | f + 1 =>
    rw [jvs] at hw
    cases hx : jv x with
    | none => rw [hx] at hw; cases hw
    | some u =>
      cases hxs : jvs xs with
      | none => rw [hx, hxs] at hw; cases hw
      | some us =>
        rw [hx, hxs] at hw
        injection hw with hw; subst hw
        have hv := readValue_dumps x l f u _ hx (by omega) (stop_items l xs k ([0x5d] ++ rest))
        match xs with
        | [] =>
          rw [jvs] at hxs; injection hxs with hxs; subst hxs
          exact readArray_end hv (by
            rw [jsonItems, List.nil_append, skipSpace_newline, List.singleton_append, skipSpace_other _ _ (by decide)])
        | y :: ys =>
          have h1 := ih y ys f us rfl hxs (by omega)
          refine readArray_more hv (by
            rw [jsonItems]
            simp only [List.cons_append, List.nil_append, List.append_assoc]
            rw [skipSpace_other _ _ (by decide)]) ?_
          rw [readArray_skip f (skipSpace_newline _ _)]
          exact h1
termination_by sizeOf x + sizeOf xs + 1
decreasing_by all_goals (simp_wf; try subst_vars; (try simp); omega)
theorem readObject_dumps (key : PyStr) (x : Json) (fs : List (PyStr × Json)) (l k f : Nat)
    (ws : List (List Nat × JValue)) (rest : PyStr)
    (hw : jvf ((key, x) :: fs) = some ws) (hf : jcostf ((key, x) :: fs) ≤ f) :
    readObject f (jsonString key ++ (lit ": " ++ (jsonDumps l x ++
      (jsonFields l fs ++ (jsonNewline k ++ ([0x7d] ++ rest)))))) = some (ws, rest) := by
  have ih : ∀ key' y ys f us, fs = (key', y) :: ys → jvf ((key', y) :: ys) = some us → jcostf ((key', y) :: ys) ≤ f →
      readObject f (jsonString key' ++ (lit ": " ++ (jsonDumps l y ++
        (jsonFields l ys ++ (jsonNewline k ++ ([0x7d] ++ rest)))))) = some (us, rest) :=
    fun key' y ys f us e h1 h2 => readObject_dumps key' y ys l k f us rest h1 h2
  rw [jcostf] at hf
  match f with
  | 0 => omega
  | f + 1 =>
    rw [jvf] at hw
    cases hx : jv x with
    | none => rw [hx] at hw; cases hw
    | some u =>
      cases hxs : jvf fs with
      | none => rw [hx, hxs] at hw; cases hw
      | some us =>
        rw [hx, hxs] at hw
        dsimp only at hw
        split at hw
        · rename_i hk
          injection hw with hw; subst hw
          have hv := readValue_dumps x l f u _ hx (by omega) (stop_fields l fs k ([0x7d] ++ rest))
          have hm := readObject_member (f := f)
            (s := jsonString key ++ (lit ": " ++ (jsonDumps l x ++
              (jsonFields l fs ++ (jsonNewline k ++ ([0x7d] ++ rest))))))
            (s0 := key.flatMap jsonChar ++ 0x22 :: (lit ": " ++ (jsonDumps l x ++
              (jsonFields l fs ++ (jsonNewline k ++ ([0x7d] ++ rest))))))
            (k := utf16 key) (x := u)
            (by
              simp only [jsonString, List.cons_append, List.nil_append, List.append_assoc]
              rw [skipSpace_other _ _ (by decide)])
            (readChars_string key (by simpa using hk) _)
            (by
              rw [show lit ": " = [0x3a, 0x20] by decide]
              simp only [List.cons_append, List.nil_append]
              rw [skipSpace_other _ _ (by decide)])
            ((readValue_skip f (by rw [skipSpace]; rfl)).trans hv)
          match fs with
          | [] =>
            rw [jvf] at hxs; injection hxs with hxs; subst hxs
            exact hm.1 rest (by
              rw [jsonFields, List.nil_append, skipSpace_newline, List.singleton_append, skipSpace_other _ _ (by decide)])
          | (key', y) :: ys =>
            have h1 := ih key' y ys f us rfl hxs (by omega)
            refine hm.2 _ rest us (by
              rw [jsonFields]
              simp only [List.cons_append, List.nil_append, List.append_assoc]
              rw [skipSpace_other _ _ (by decide)]) ?_
            rw [readObject_skip f (skipSpace_newline _ _)]
            exact h1
        · cases hw
termination_by sizeOf x + sizeOf fs + 1
decreasing_by all_goals (simp_wf; try subst_vars; (try simp); omega)
end

mutual
theorem jcost_le (v : Json) (l : Nat) (w : JValue) (h : jv v = some w) : jcost v ≤ (jsonDumps l v).length := by
  match v with
  | .null | .bool _ | .int _ | .float _ | .str _ =>
    obtain ⟨c, t, e, -⟩ := jsonDumps_head l _ w h
    rw [e]; simp [jcost]
  | .arr [] => rw [jcost, jcosts, jsonDumps]; decide
  | .obj [] => rw [jcost, jcostf, jsonDumps]; decide
  | .arr (x :: xs) =>
    rw [jv, jvs] at h
    cases hx : jv x with
    | none => rw [hx] at h; cases h
    | some u =>
      cases hxs : jvs xs with
      | none => rw [hx, hxs] at h; cases h
      | some us =>
        have h1 := jcost_le x (l + 1) u hx
        have h2 := jcosts_le xs (l + 1) us hxs
        rw [jcost, jcosts, jsonDumps]
        simp only [List.length_append, List.length_cons, List.length_nil]
        omega
  | .obj ((k, x) :: fs) =>
    rw [jv, jvf] at h
    cases hx : jv x with
    | none => rw [hx] at h; cases h
    | some u =>
      cases hxs : jvf fs with
      | none => rw [hx, hxs] at h; cases h
      | some us =>
        have h1 := jcost_le x (l + 1) u hx
        have h2 := jcostf_le fs (l + 1) us hxs
        rw [jcost, jcostf, jsonDumps]
        simp only [List.length_append, List.length_cons, List.length_nil]
        omega
theorem jcosts_le (xs : List Json) (l : Nat) (ws : List JValue) (h : jvs xs = some ws) :
    jcosts xs ≤ (jsonItems l xs).length := by
  match xs with
  | [] => rw [jcosts]; omega
  | x :: xs =>
    rw [jvs] at h
    cases hx : jv x with
    | none => rw [hx] at h; cases h
    | some u =>
      cases hxs : jvs xs with
      | none => rw [hx, hxs] at h; cases h
      | some us =>
        have h1 := jcost_le x l u hx
        have h2 := jcosts_le xs l us hxs
        rw [jcosts, jsonItems]
        simp only [List.length_append, List.length_cons, List.length_nil]
        omega
theorem jcostf_le (fs : List (PyStr × Json)) (l : Nat) (ws : List (List Nat × JValue)) (h : jvf fs = some ws) :
    jcostf fs ≤ (jsonFields l fs).length := by
  match fs with
  | [] => rw [jcostf]; omega
  | (k, x) :: fs =>
    rw [jvf] at h
    cases hx : jv x with
    | none => rw [hx] at h; cases h
    | some u =>
      cases hxs : jvf fs with
      | none => rw [hx, hxs] at h; cases h
      | some us =>
        have h1 := jcost_le x l u hx
        have h2 := jcostf_le fs l us hxs
        rw [jcostf, jsonFields]
        simp only [List.length_append, List.length_cons, List.length_nil]
        omega
end

/-- What `json.dumps` writes is read as the value. -/
theorem readJson_dumps (v : Json) (w : JValue) (h : jv v = some w) : readJson (jsonDumps 0 v) = some w := by
  unfold readJson
  have := readValue_dumps v 0 ((jsonDumps 0 v).length + 1) w [] h (by have := jcost_le v 0 w h; omega)
    (by intro c t e; cases e)
  rw [List.append_nil] at this
  rw [this]
  rfl

end Hwp
