/- C82, C83: the characters of the JSON output, and numbers that are not finite. -/
import Verif.Props.ModelJson
set_option autoImplicit false
set_option linter.unusedSimpArgs false
set_option linter.unusedVariables false
namespace Hwp.Props
open Hwp Spec

/-- A printable ASCII character, or the end of a line. -/
def Printable (c : Nat) : Prop := c = 0x0a ∨ (0x20 ≤ c ∧ c ≤ 0x7e)

instance (c : Nat) : Decidable (Printable c) := inferInstanceAs (Decidable (_ ∨ _))

mutual
/-- The texts of numbers are printable. -/
def FloatsPrintable : Json → Prop
  | .float t => ∀ c ∈ t, Printable c
  | .arr xs => FloatsPrintableL xs
  | .obj fs => FloatsPrintableF fs
  | _ => True
def FloatsPrintableL : List Json → Prop
  | [] => True
  | x :: xs => FloatsPrintable x ∧ FloatsPrintableL xs
def FloatsPrintableF : List (PyStr × Json) → Prop
  | [] => True
  | (_, v) :: fs => FloatsPrintable v ∧ FloatsPrintableF fs
end

theorem hexDigit_printable (d : Nat) (h : d < 16) : Printable (jsonHexDigit d) := by
  unfold jsonHexDigit Printable
  split <;> omega

theorem escapeU_printable (n : Nat) : ∀ c ∈ jsonEscapeU n, Printable c := by
  intro c hc
  simp only [jsonEscapeU, List.mem_cons, List.not_mem_nil, or_false] at hc
  rcases hc with rfl | rfl | rfl | rfl | rfl | rfl
  · decide
  · decide
  all_goals exact hexDigit_printable _ (Nat.mod_lt _ (by decide))

theorem jsonChar_printable (x : Nat) : ∀ c ∈ jsonChar x, Printable c := by
  unfold jsonChar
  split
  · decide +kernel
  split
  · decide +kernel
  split
  · decide +kernel
  split
  · decide +kernel
  split
  · decide +kernel
  split
  · decide +kernel
  split
  · decide +kernel
  split
  · rename_i h; intro c hc; simp only [List.mem_singleton] at hc; subst hc; exact .inr h
  split
  · exact escapeU_printable _
  · intro c hc
    rcases List.mem_append.1 hc with h | h
    · exact escapeU_printable _ c h
    · exact escapeU_printable _ c h

theorem jsonString_printable (s : PyStr) : ∀ c ∈ jsonString s, Printable c := by
  intro c hc
  simp only [jsonString, List.mem_append, List.mem_singleton, List.mem_flatMap] at hc
  rcases hc with (rfl | ⟨x, -, h⟩) | rfl
  · decide
  · exact jsonChar_printable x c h
  · decide

theorem jsonNewline_printable (n : Nat) : ∀ c ∈ jsonNewline n, Printable c := by
  intro c hc
  simp only [jsonNewline, List.mem_cons, List.mem_replicate] at hc
  rcases hc with rfl | ⟨-, rfl⟩ <;> decide

theorem intStr_printable (n : Int) : ∀ c ∈ intStr n, Printable c := by
  rw [intStr_decimal]
  unfold Printable
  cases n with
  | ofNat m => intro c hc; have := decDigits_mem m c hc; omega
  | negSucc m =>
    intro c hc
    simp only [Hwp.decimal, List.mem_cons] at hc
    rcases hc with rfl | hc
    · omega
    · have := decDigits_mem _ c hc; omega

mutual
theorem dumps_printable (j : Json) : ∀ level, FloatsPrintable j → ∀ c ∈ jsonDumps level j, Printable c := by
  intro level h
  cases j with
  | null => rw [jsonDumps]; decide +kernel
  | bool b => rw [jsonDumps]; cases b <;> decide +kernel
  | int n => rw [jsonDumps]; exact intStr_printable n
  | float t => rw [jsonDumps]; rw [FloatsPrintable] at h; exact h
  | str s => rw [jsonDumps]; exact jsonString_printable s
  | arr xs =>
    rw [FloatsPrintable] at h
    cases xs with
    | nil => rw [jsonDumps]; decide +kernel
    | cons x xs =>
      rw [FloatsPrintableL] at h
      rw [jsonDumps]
      intro c hc
      simp only [List.mem_append, List.mem_singleton] at hc
      rcases hc with ((((rfl | h1) | h1) | h1) | h1) | rfl
      · decide
      · exact jsonNewline_printable _ c h1
      · exact dumps_printable x _ h.1 c h1
      · exact items_printable xs _ h.2 c h1
      · exact jsonNewline_printable _ c h1
      · decide
  | obj fs =>
    rw [FloatsPrintable] at h
    cases fs with
    | nil => rw [jsonDumps]; decide +kernel
    | cons f fs =>
      obtain ⟨k, v⟩ := f
      rw [FloatsPrintableF] at h
      rw [jsonDumps]
      intro c hc
      simp only [List.mem_append, List.mem_singleton] at hc
      rcases hc with ((((((rfl | h1) | h1) | h1) | h1) | h1) | h1) | rfl
      · decide
      · exact jsonNewline_printable _ c h1
      · exact jsonString_printable _ c h1
      · revert c; decide +kernel
      · exact dumps_printable v _ h.1 c h1
      · exact fields_printable fs _ h.2 c h1
      · exact jsonNewline_printable _ c h1
      · decide
theorem items_printable (xs : List Json) : ∀ level, FloatsPrintableL xs → ∀ c ∈ jsonItems level xs, Printable c := by
  intro level h
  cases xs with
  | nil => rw [jsonItems]; simp
  | cons x xs =>
    rw [FloatsPrintableL] at h
    rw [jsonItems]
    intro c hc
    simp only [List.mem_append, List.mem_singleton] at hc
    rcases hc with ((rfl | h1) | h1) | h1
    · decide
    · exact jsonNewline_printable _ c h1
    · exact dumps_printable x _ h.1 c h1
    · exact items_printable xs _ h.2 c h1
theorem fields_printable (fs : List (PyStr × Json)) : ∀ level, FloatsPrintableF fs → ∀ c ∈ jsonFields level fs, Printable c := by
  intro level h
  cases fs with
  | nil => rw [jsonFields]; simp
  | cons f fs =>
    obtain ⟨k, v⟩ := f
    rw [FloatsPrintableF] at h
    rw [jsonFields]
    intro c hc
    simp only [List.mem_append, List.mem_singleton] at hc
    rcases hc with ((((rfl | h1) | h1) | h1) | h1) | h1
    · decide
    · exact jsonNewline_printable _ c h1
    · exact jsonString_printable _ c h1
    · revert c; decide +kernel
    · exact dumps_printable v _ h.1 c h1
    · exact fields_printable fs _ h.2 c h1
end

theorem floatsF_iff (fs : List (PyStr × Json)) : FloatsPrintableF fs ↔ ∀ f ∈ fs, FloatsPrintable f.2 := by
  induction fs with
  | nil => simp [FloatsPrintableF]
  | cons f fs ih => obtain ⟨k, v⟩ := f; simp [FloatsPrintableF, ih]

theorem floatsL_iff (xs : List Json) : FloatsPrintableL xs ↔ ∀ x ∈ xs, FloatsPrintable x := by
  induction xs with
  | nil => simp [FloatsPrintableL]
  | cons x xs ih => simp [FloatsPrintableL, ih]

theorem mem_insertKey {α : Type} (k : PyStr) (v : α) (fs : List (PyStr × α)) (f : PyStr × α) (h : f ∈ insertKey k v fs) : f = (k, v) ∨ f ∈ fs := by
  induction fs with
  | nil => simpa [insertKey] using h
  | cons g fs ih =>
    obtain ⟨k', v'⟩ := g
    simp only [insertKey] at h
    split at h
    · rcases List.mem_cons.1 h with h | h
      · exact .inr (by simp [h])
      · rcases ih h with h | h
        · exact .inl h
        · exact .inr (by simp [h])
    · simpa using h

theorem mem_sortKeys {α : Type} (fs : List (PyStr × α)) (f : PyStr × α) (h : f ∈ sortKeys fs) : f ∈ fs := by
  induction fs with
  | nil => exact h
  | cons g fs ih =>
    obtain ⟨k, v⟩ := g
    simp only [sortKeys] at h
    rcases mem_insertKey _ _ _ _ h with h | h
    · simp [h]
    · simp [ih h]

theorem floats_sortKeys (fs : List (PyStr × Json)) (h : FloatsPrintableF fs) : FloatsPrintableF (sortKeys fs) := by
  rw [floatsF_iff] at h ⊢
  exact fun f hf => h f (mem_sortKeys _ _ hf)

theorem bindOk {ε α β : Type} {x : Except ε α} {f : α → Except ε β} {b : β} (h : (x >>= f) = .ok b) : ∃ a, x = .ok a ∧ f a = .ok b := by
  cases x with
  | error e => cases h
  | ok a => exact ⟨a, rfl, h⟩

theorem array_printable (ts : List PyStr) (h : ∀ t ∈ ts, ∀ c ∈ t, Printable c) : ∀ first, ∀ t ∈ jsonArrayLoop first ts, ∀ c ∈ t, Printable c := by
  induction ts with
  | nil => intro first; cases first <;> decide
  | cons t ts ih =>
    intro first u hu
    simp only [jsonArrayLoop, List.mem_cons] at hu
    rcases hu with rfl | rfl | hu
    · cases first <;> decide
    · exact h u (by simp)
    · exact ih (fun t ht => h t (by simp [ht])) false u hu

theorem objects_printable {α : Type} (f : α → PyStr) (g : Gen α) (h : ∀ a ∈ g.out, ∀ c ∈ f a, Printable c) :
    ∀ c ∈ (jsonObjects f g).out.flatten, Printable c := by
  have hall := array_printable (g.out.map f) (by simpa using h) true
  intro c hc
  obtain ⟨t, ht, hc⟩ := List.mem_flatten.1 hc
  refine hall t ?_ c hc
  unfold jsonObjects at ht
  cases he : g.err with
  | none => rw [he] at ht; exact ht
  | some e => rw [he] at ht; exact List.dropLast_subset _ ht

theorem dump_floats (b : Bytes) : FloatsPrintable (jsonDump b) := by
  rw [jsonDump, FloatsPrintable, floatsL_iff]
  intro x hx
  obtain ⟨l, -, rfl⟩ := List.mem_map.1 hx
  simp [FloatsPrintable]

/-- C82: the output is printable ASCII in lines, whatever is in the records and whether or not they can all be read. -/
theorem C82_ascii (g : Gen Record) : ∀ c ∈ (recordsJson g).out.flatten, Printable c := by
  refine objects_printable _ g fun r _ => dumps_printable _ _ ?_
  rw [FloatsPrintable]
  refine floats_sortKeys _ ?_
  simp only [recordDict, FloatsPrintableF, FloatsPrintable, and_true, true_and]
  have := dump_floats r.payload
  rw [jsonDump, FloatsPrintable] at this
  exact this

theorem leaf_floats (env : JsonEnv) (hf : ∀ b, ∀ c ∈ env.floatRepr b, Printable c) (p : PVal) (j : Json) (h : jsonLeaf env p = .ok j) :
    FloatsPrintable j := by
  cases p <;> simp only [jsonLeaf, Except.ok.injEq, reduceCtorEq] at h
  case double b =>
    subst h
    rw [FloatsPrintable]
    unfold jsonFloat
    split
    · exact hf b
    split
    · decide +kernel
    split <;> decide +kernel
  case chunks cs =>
    subst h
    rw [FloatsPrintable, floatsL_iff]
    intro x hx
    obtain ⟨c, -, rfl⟩ := List.mem_map.1 hx
    unfold jsonChunk
    rw [FloatsPrintable]
    simp only [FloatsPrintableL, FloatsPrintable, and_true, true_and]
    cases c.val with
    | text s => simp [FloatsPrintable]
    | ctrl d =>
      cases d with
      | plain => simp [jsonCtrl, FloatsPrintable, FloatsPrintableF]
      | tab =>
        simp only [jsonCtrl, FloatsPrintable]
        refine floats_sortKeys _ ?_
        simp only [FloatsPrintableF, FloatsPrintable, and_true, true_and]
        refine floats_sortKeys _ ?_
        simp [FloatsPrintableF, FloatsPrintable]
      | other =>
        simp only [jsonCtrl, FloatsPrintable]
        refine floats_sortKeys _ ?_
        simp [FloatsPrintableF, FloatsPrintable]
  case version ns =>
    subst h
    rw [FloatsPrintable, floatsL_iff]
    intro x hx
    obtain ⟨c, -, rfl⟩ := List.mem_map.1 hx
    simp [FloatsPrintable]
  all_goals (subst h; simp [FloatsPrintable])

mutual
theorem value_floats (env : JsonEnv) (hf : ∀ b, ∀ c ∈ env.floatRepr b, Printable c) (v : Value PVal) (j : Json) (h : jsonValue env v = .ok j) :
    FloatsPrintable j := by
  match v with
  | .leaf p => rw [jsonValue] at h; exact leaf_floats env hf p j h
  | .list xs =>
    rw [jsonValue] at h
    obtain ⟨js, h1, h2⟩ := bindOk h
    cases h2
    rw [FloatsPrintable]
    exact values_floats env hf xs js h1
  | .tuple xs =>
    rw [jsonValue] at h
    obtain ⟨js, h1, h2⟩ := bindOk h
    cases h2
    rw [FloatsPrintable]
    exact values_floats env hf xs js h1
  | .struct fs =>
    rw [jsonValue] at h
    obtain ⟨js, h1, h2⟩ := bindOk h
    cases h2
    rw [FloatsPrintable]
    exact floats_sortKeys _ (members_floats env hf fs js h1)
theorem values_floats (env : JsonEnv) (hf : ∀ b, ∀ c ∈ env.floatRepr b, Printable c) (xs : List (Value PVal)) (js : List Json)
    (h : jsonValues env xs = .ok js) : FloatsPrintableL js := by
  match xs with
  | [] => rw [jsonValues] at h; cases h; rw [FloatsPrintableL]; trivial
  | x :: xs =>
    rw [jsonValues] at h
    obtain ⟨j, h1, h⟩ := bindOk h
    obtain ⟨js', h2, h⟩ := bindOk h
    cases h
    rw [FloatsPrintableL]
    exact ⟨value_floats env hf x j h1, values_floats env hf xs js' h2⟩
theorem members_floats (env : JsonEnv) (hf : ∀ b, ∀ c ∈ env.floatRepr b, Printable c) (fs : List (String × Value PVal)) (js : List (PyStr × Json))
    (h : jsonFieldsOf env fs = .ok js) : FloatsPrintableF js := by
  match fs with
  | [] => rw [jsonFieldsOf] at h; cases h; rw [FloatsPrintableF]; trivial
  | (k, v) :: fs =>
    rw [jsonFieldsOf] at h
    obtain ⟨j, h1, h⟩ := bindOk h
    obtain ⟨js', h2, h⟩ := bindOk h
    cases h
    rw [FloatsPrintableF]
    exact ⟨value_floats env hf v j h1, members_floats env hf fs js' h2⟩
end

theorem model_printable (env : JsonEnv) (hf : ∀ b, ∀ c ∈ env.floatRepr b, Printable c) (m : PModel Fields) (t : PyStr)
    (h : modelToJson env m = .ok t) : ∀ c ∈ t, Printable c := by
  unfold modelToJson at h
  obtain ⟨content, h1, h⟩ := bindOk h
  cases h
  refine dumps_printable _ _ ?_
  rw [FloatsPrintable]
  refine floats_sortKeys _ ?_
  have h1 := value_floats env hf _ _ h1
  rw [floatsF_iff]
  intro f hf
  rcases List.mem_append.1 hf with hf | hf
  · simp only [List.mem_cons, List.not_mem_nil, or_false] at hf
    rcases hf with rfl | rfl | rfl | rfl | rfl | rfl | rfl | rfl <;>
      first | exact dump_floats _ | exact h1 | (simp only [FloatsPrintable])
  · cases hu : m.unparsed with
    | none => rw [hu] at hf; cases hf
    | some u =>
      rw [hu] at hf
      simp only [List.mem_singleton] at hf
      subst hf
      exact dump_floats u

theorem writeEach_mem {α β : Type} (f : α → Except PyErr (List β)) (err : Option PyErr) (rs : List α) (b : β)
    (h : b ∈ (writeEach f err rs).out) : ∃ r ∈ rs, ∃ bs, f r = .ok bs ∧ b ∈ bs := by
  induction rs with
  | nil => cases h
  | cons r rs ih =>
    rw [writeEach] at h
    cases hr : f r with
    | error e => rw [hr] at h; cases h
    | ok bs =>
      rw [hr] at h
      rcases List.mem_append.1 h with h | h
      · exact ⟨r, by simp, bs, hr, h⟩
      · obtain ⟨r', h1, h2⟩ := ih h
        exact ⟨r', by simp [h1], h2⟩

/-- C83: the output is printable ASCII in lines, whatever is in the records and whether or not they can all be read. -/
theorem C83_ascii (env : JsonEnv) (hf : ∀ b, ∀ c ∈ env.floatRepr b, Printable c) (g : Gen (PModel Fields)) :
    ∀ c ∈ (modelsJson env g).out.flatten, Printable c := by
  refine objects_printable _ _ ?_
  intro t ht
  obtain ⟨m, -, bs, h1, h2⟩ := writeEach_mem _ _ _ _ ht
  obtain ⟨u, hu, h1⟩ := bindOk h1
  cases h1
  simp only [List.mem_singleton] at h2
  subst h2
  exact model_printable env hf m _ hu

/-- The digits are lower case; characters from U+10000 are surrogate pairs; DEL is not printable. -/
example : jsonString [0xe9, 0x7f, 0x1f600, 0x41, 0x22] = lit "\"\\u00e9\\u007f\\ud83d\\ude00A\\\"\"" := by decide +kernel

/-- IEEE 754: sign and mantissa of the number with these eight bytes (least significant first). -/
def Negative (b : Bytes) : Prop := leNat b / 2 ^ 63 = 1
def Mantissa (b : Bytes) : Nat := leNat b % 2 ^ 52

/-- C83: numbers that are not finite are written as the words of JavaScript: `NaN` if the mantissa is not zero, and
otherwise `Infinity` with the sign. -/
theorem C83_not_finite (env : JsonEnv) (b : Bytes) (h : b.length = 8) (hf : ¬ Finite b) :
    (Mantissa b ≠ 0 → jsonFloat env b = lit "NaN") ∧
    (Mantissa b = 0 → ¬ Negative b → jsonFloat env b = lit "Infinity") ∧
    (Mantissa b = 0 → Negative b → jsonFloat env b = lit "-Infinity") := by
  have h0 : finiteDouble b = false := by
    rw [← Bool.not_eq_true, finite_iff b h]; exact hf
  match b, h with
  | [b0, b1, b2, b3, b4, b5, b6, b7], _ =>
    have h0' := b0.toNat_lt; have h1' := b1.toNat_lt; have h2' := b2.toNat_lt; have h3' := b3.toNat_lt
    have h4' := b4.toNat_lt; have h5' := b5.toNat_lt; have h6' := b6.toNat_lt; have h7' := b7.toNat_lt
    have hz : zeroMantissa [b0, b1, b2, b3, b4, b5, b6, b7] = true ↔ Mantissa [b0, b1, b2, b3, b4, b5, b6, b7] = 0 := by
      simp only [zeroMantissa, Mantissa, leNat, List.take, List.all_cons, List.all_nil, Bool.and_true, Bool.and_eq_true, beq_iff_eq,
        List.getD_cons_succ, List.getD_cons_zero, ← UInt8.toNat_inj]
      simp only [UInt8.toNat_zero]
      omega
    have hn : [b0, b1, b2, b3, b4, b5, b6, b7].getD 7 0 = b7 := rfl
    have hs : Negative [b0, b1, b2, b3, b4, b5, b6, b7] ↔ ¬ b7.toNat < 128 := by
      simp only [Negative, leNat]
      omega
    unfold jsonFloat
    rw [h0, hn]
    refine ⟨fun hm => ?_, fun hm hg => ?_, fun hm hg => ?_⟩
    · have : zeroMantissa [b0, b1, b2, b3, b4, b5, b6, b7] = false := by rw [← Bool.not_eq_true, hz]; exact hm
      simp [this]
    · have := hz.2 hm
      have h2 : b7.toNat < 128 := by rw [hs] at hg; omega
      simp [this, h2]
    · have := hz.2 hm
      have h2 : ¬ b7.toNat < 128 := hs.1 hg
      simp [this, h2]

example : jsonFloat halfEnv [0, 0, 0, 0, 0, 0, 0xf0, 0xff] = lit "-Infinity" ∧ jsonFloat halfEnv [1, 0, 0, 0, 0, 0, 0xf0, 0x7f] = lit "NaN" := by
  decide +kernel
example : ¬ Finite [0, 0, 0, 0, 0, 0, 0xf0, 0xff] ∧ Negative [0, 0, 0, 0, 0, 0, 0xf0, 0xff] ∧ Mantissa [0, 0, 0, 0, 0, 0, 0xf0, 0xff] = 0 := by
  unfold Finite Negative; decide

end Hwp.Props
